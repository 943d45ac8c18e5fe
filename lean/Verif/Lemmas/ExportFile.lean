import Verif.Lemmas.Export
import Mathlib.Data.Nat.Digits.Lemmas

namespace Zok.Export
open Ser (Bytes writeLE)
variable {p : ℕ} {Z : Type _}

/-! ### Numbers -/

theorem bytesLE_zero (n : ℕ) : Fld.bytesLE n 0 = List.replicate n 0 := by
  induction n with
  | zero => rfl
  | succ n ih => simp only [Fld.bytesLE, Nat.zero_mod, Nat.zero_div, ih, List.replicate_succ]

theorem padBytes_digits (n x : ℕ) : padBytes n (Nat.digits 256 x) = Fld.bytesLE n x := by
  induction n generalizing x with
  | zero => simp [padBytes, Fld.bytesLE]
  | succ n ih =>
    rcases Nat.eq_zero_or_pos x with rfl | hx
    · rw [bytesLE_zero]
      simp [padBytes]
    · rw [Nat.digits_def' (by norm_num) hx]
      have := ih (x / 256)
      unfold padBytes at this ⊢
      simp only [List.take_succ_cons, List.length_cons, Nat.add_sub_add_right, List.cons_append, this, Fld.bytesLE]

theorem padBytes_toBytesLe (n x : ℕ) : padBytes n (toBytesLe x) = Fld.bytesLE n x := by
  unfold toBytesLe
  split
  · rename_i h
    subst h
    rw [bytesLE_zero]
    cases n with
    | zero => rfl
    | succ n => simp [padBytes, List.replicate_succ]
  · exact padBytes_digits n x

theorem natLE_digits (x : ℕ) : Fld.natLE (Nat.digits 256 x) = x := by
  have h : ∀ b : List ℕ, Fld.natLE b = Nat.ofDigits 256 b := by
    intro b
    induction b with
    | nil => rfl
    | cons a b ih => simp only [Fld.natLE, Nat.ofDigits_cons, ih]
  rw [h, Nat.ofDigits_digits]

theorem modulusBytes_eq [Fact p.Prime] : modulusBytes p = Nat.digits 256 p := by
  have hp := Fld.p_pos (p := p)
  unfold modulusBytes toBytesLe
  rw [Fld.val_maxValue, Nat.sub_add_cancel hp, if_neg (by omega)]

theorem modulusBytes_len (h1 : 256 ^ 31 ≤ p) (h2 : p < 256 ^ 32) : (Nat.digits 256 p).length = 32 := by
  have a : 31 < (Nat.digits 256 p).length := by
    rw [Nat.lt_digits_length_iff (by norm_num)]
    exact h1
  have b : (Nat.digits 256 p).length ≤ 32 := by
    rw [Nat.digits_length_le_iff (by norm_num)]
    exact h2
  omega

theorem p_lt_modulus [Fact p.Prime] : p < 256 ^ (modulusBytes p).length := by
  rw [modulusBytes_eq]
  exact Nat.lt_base_pow_length_digits (by norm_num)

/-! ### Reading -/

theorem rdNum_append {k : ℕ} {b r : Bytes} (h : b.length = k) : rdNum k (b ++ r) = some (Fld.natLE b, r) := by
  unfold rdNum
  rw [if_pos (by simp; omega)]
  subst h
  simp

theorem rdNum_write {k x : ℕ} (h : x < 256 ^ k) (r : Bytes) : rdNum k (writeLE k x ++ r) = some (x, r) := by
  unfold writeLE
  rw [rdNum_append (Fld.length_bytesLE k x), Fld.natLE_bytesLE, Nat.mod_eq_of_lt h]

theorem rdMany_flatMap {α β : Type _} (rd : Reader β) (enc : α → Bytes) (dec : α → β) (as : List α)
    (h : ∀ a ∈ as, ∀ r, rd (enc a ++ r) = some (dec a, r)) (r : Bytes) :
    rdMany rd as.length (as.flatMap enc ++ r) = some (as.map dec, r) := by
  induction as with
  | nil => rfl
  | cons a as ih =>
    simp only [List.length_cons, List.flatMap_cons, List.append_assoc, rdMany]
    rw [h a List.mem_cons_self]
    simp only
    rw [ih fun b hb => h b (List.mem_cons_of_mem _ hb)]
    rfl

theorem rdLin_write [Fact p.Prime] (hp : p < 256 ^ 32) (l : List (ℕ × ZMod p)) (hl : l.length < 2 ^ 32)
    (hb : ∀ t ∈ l, t.1 < 2 ^ 32) (r : Bytes) : rdLin 32 (writeLincomb l ++ r) = some (natTerms l, r) := by
  unfold rdLin writeLincomb
  rw [List.append_assoc, rdNum_write (by norm_num at hl ⊢; exact hl)]
  simp only
  refine rdMany_flatMap _ _ (fun t => (t.1, t.2.val)) l ?_ r
  intro t ht r
  have h1 : t.1 < 256 ^ 4 := by have := hb t ht; norm_num at this ⊢; exact this
  unfold rdTerm
  rw [List.append_assoc, rdNum_write h1]
  simp only
  rw [padBytes_toBytesLe, rdNum_append (Fld.length_bytesLE _ _), Fld.natLE_bytesLE,
    Nat.mod_eq_of_lt (lt_trans (Fld.val_lt _) hp)]

theorem length_writeLincomb (l : List (ℕ × ZMod p)) : (writeLincomb l).length = 4 + 36 * l.length := by
  unfold writeLincomb
  simp only [List.length_append, writeLE, Fld.length_bytesLE, List.length_flatMap, padBytes_toBytesLe, List.map_const',
    List.sum_replicate, smul_eq_mul]
  omega

theorem length_writeRows (rs : List (Row (ZMod p))) :
    (writeRows rs).length = (rs.map fun r => 3 * 4 + (r.1.length + r.2.1.length + r.2.2.length) * (32 + 4)).sum := by
  unfold writeRows
  rw [List.length_flatMap]
  congr 1
  apply List.map_congr_left
  intro r _
  simp only [List.length_append, length_writeLincomb]
  omega

theorem rdRow_write [Fact p.Prime] (hp : p < 256 ^ 32) (row : Row (ZMod p)) (n : ℕ) (hn : n < 2 ^ 32) (hb : RowBounded n row)
    (h1 : row.1.length < 2 ^ 32) (h2 : row.2.1.length < 2 ^ 32) (h3 : row.2.2.length < 2 ^ 32) (r : Bytes) :
    rdRow 32 (writeLincomb row.1 ++ writeLincomb row.2.1 ++ writeLincomb row.2.2 ++ r) = some (natRow row, r) := by
  unfold rdRow
  rw [List.append_assoc, List.append_assoc, rdLin_write hp _ h1 (fun t ht => lt_trans (hb.1 t ht) hn)]
  simp only
  rw [rdLin_write hp _ h2 (fun t ht => lt_trans (hb.2.1 t ht) hn)]
  simp only
  rw [rdLin_write hp _ h3 (fun t ht => lt_trans (hb.2.2 t ht) hn)]
  rfl

theorem rdSection_write {ty size : ℕ} {body : Bytes} (hty : ty < 2 ^ 32) (hsize : size = body.length)
    (hb : body.length < 2 ^ 64) (r : Bytes) :
    rdSection (writeLE 4 ty ++ (writeLE 8 size ++ (body ++ r))) = some ((ty, body), r) := by
  unfold rdSection
  rw [rdNum_write (by norm_num at hty ⊢; exact hty)]
  simp only
  rw [rdNum_write (by rw [hsize]; norm_num at hb ⊢; exact hb)]
  simp only
  rw [hsize, if_pos (by simp), List.take_left, List.drop_left]

theorem row_le_sum (rs : List (Row (ZMod p))) (r : Row (ZMod p)) (hr : r ∈ rs) :
    r.1.length ≤ (writeRows rs).length ∧ r.2.1.length ≤ (writeRows rs).length ∧ r.2.2.length ≤ (writeRows rs).length := by
  have : (writeLincomb r.1 ++ writeLincomb r.2.1 ++ writeLincomb r.2.2).length ≤ (writeRows rs).length := by
    unfold writeRows
    rw [List.length_flatMap]
    exact List.single_le_sum (by simp) _ (List.mem_map.2 ⟨r, hr, rfl⟩)
  simp only [List.length_append, length_writeLincomb] at this
  omega

theorem rows_length_le (rs : List (Row (ZMod p))) : rs.length ≤ (writeRows rs).length := by
  rw [length_writeRows]
  induction rs with
  | nil => simp
  | cons r rs ih =>
    simp only [List.map_cons, List.sum_cons, List.length_cons]
    omega

/-- Reading the `.r1cs` file of a program. -/
theorem rdR1cs_write [Fact p.Prime] (h31 : 256 ^ 31 ≤ p) (h32 : p < 256 ^ 32) (prog : Prog (ZMod p) Z)
    {vars : List Variable} {off : ℕ} {rs : List (Row (ZMod p))} (hr : r1csProgram prog = some (vars, off, rs))
    (hb : ∀ r ∈ rs, RowBounded vars.length r) (hret : prog.returnCount + prog.publicInputs.length ≤ vars.length)
    (hargs : prog.arguments.length < 2 ^ 32) {file : Bytes} (hw : writeR1cs prog = some file) (hsize : file.length < 2 ^ 32) :
    ∃ ss, rdFile [0x72, 0x31, 0x63, 0x73] 1 file = some ss ∧ rdR1cs ss = some ⟨p, vars.length, prog.returnCount,
      (prog.arguments.filter fun a => !a.priv).length, (prog.arguments.filter fun a => a.priv).length, vars.length,
      rs.map natRow⟩ := by
  unfold writeR1cs at hw
  rw [hr] at hw
  simp only [Option.some.injEq] at hw
  have hfs : (modulusBytes p).length = 32 := by rw [modulusBytes_eq, modulusBytes_len h31 h32]
  rw [hfs] at hw
  generalize hT : ((List.range vars.length).flatMap fun i => writeLE 8 i) = T at hw
  have hTl : T.length = vars.length * 8 := by
    rw [← hT]
    simp only [List.length_flatMap, writeLE, Fld.length_bytesLE, List.map_const', List.sum_replicate, smul_eq_mul,
      List.length_range]
  generalize hH : (writeLE 4 32 ++ modulusBytes p ++ writeLE 4 vars.length ++ writeLE 4 prog.returnCount ++
        writeLE 4 (prog.arguments.filter fun a => !a.priv).length ++
        writeLE 4 (prog.arguments.filter fun a => a.priv).length ++ writeLE 8 vars.length ++ writeLE 4 rs.length) = H at hw
  have hHl : H.length = 64 := by
    rw [← hH]
    simp only [List.length_append, writeLE, Fld.length_bytesLE, hfs]
  have hC := length_writeRows rs
  have hlen : file.length = 12 + (12 + (writeRows rs).length) + (12 + 64) + (12 + vars.length * 8) := by
    rw [← hw]
    simp only [List.length_append, writeLE, Fld.length_bytesLE, hHl, hTl, List.length_cons, List.length_nil]
    omega
  refine ⟨[(2, writeRows rs), (1, H), (3, T)], ?_, ?_⟩
  · unfold rdFile
    rw [← hw]
    simp only [List.append_assoc]
    rw [if_neg (by simp)]
    rw [show List.drop 4 ([0x72, 0x31, 0x63, 0x73] ++ (writeLE 4 1 ++ (writeLE 4 3 ++ (writeLE 4 2 ++ (writeLE 8
        (rs.map fun r => 3 * 4 + (r.1.length + r.2.1.length + r.2.2.length) * (32 + 4)).sum ++ (writeRows rs ++
        (writeLE 4 1 ++ (writeLE 8 (32 + 32) ++ (H ++ (writeLE 4 3 ++ (writeLE 8 (vars.length * 8) ++ T))))))))))) =
      writeLE 4 1 ++ (writeLE 4 3 ++ (writeLE 4 2 ++ (writeLE 8
        (rs.map fun r => 3 * 4 + (r.1.length + r.2.1.length + r.2.2.length) * (32 + 4)).sum ++ (writeRows rs ++
        (writeLE 4 1 ++ (writeLE 8 (32 + 32) ++ (H ++ (writeLE 4 3 ++ (writeLE 8 (vars.length * 8) ++ T))))))))) from rfl]
    rw [rdNum_write (by norm_num)]
    simp only [ne_eq, not_true_eq_false, if_false]
    rw [rdNum_write (by norm_num)]
    simp only [rdMany]
    rw [rdSection_write (by norm_num) hC.symm (by omega)]
    simp only
    rw [rdSection_write (by norm_num) hHl.symm (by omega)]
    simp only
    rw [show writeLE 4 3 ++ (writeLE 8 (vars.length * 8) ++ T) = writeLE 4 3 ++ (writeLE 8 (vars.length * 8) ++ (T ++ [])) by
      simp, rdSection_write (by norm_num) hTl.symm (by omega)]
  · have hl1 : ([(2, writeRows rs), (1, H), (3, T)] : List (ℕ × Bytes)).lookup 1 = some H := by simp [List.lookup]
    have hl2 : ([(2, writeRows rs), (1, H), (3, T)] : List (ℕ × Bytes)).lookup 2 = some (writeRows rs) := by
      simp [List.lookup]
    unfold rdR1cs
    rw [hl1, hl2]
    simp only
    have hfl1 : (prog.arguments.filter fun a => !a.priv).length ≤ prog.arguments.length := List.length_filter_le _ _
    have hfl2 : (prog.arguments.filter fun a => a.priv).length ≤ prog.arguments.length := List.length_filter_le _ _
    have hrl := rows_length_le rs
    have e4 : (256 : ℕ) ^ 4 = 2 ^ 32 := by norm_num
    have e8 : (256 : ℕ) ^ 8 = 2 ^ 64 := by norm_num
    rw [← hH]
    simp only [List.append_assoc]
    rw [rdNum_write (by norm_num)]
    simp only
    rw [rdNum_append hfs]
    simp only [rdMany]
    rw [rdNum_write (by rw [e4]; omega)]
    simp only
    rw [rdNum_write (by rw [e4]; omega)]
    simp only
    rw [rdNum_write (by rw [e4]; omega)]
    simp only
    rw [rdNum_write (by rw [e4]; omega)]
    simp only
    rw [rdNum_write (by rw [e8]; omega)]
    simp only
    rw [show writeLE 4 rs.length = writeLE 4 rs.length ++ [] by simp, rdNum_write (by rw [e4]; omega)]
    simp only
    have hrows : rdMany (rdRow 32) rs.length (writeRows rs ++ []) = some (rs.map natRow, []) := by
      refine rdMany_flatMap _ _ natRow rs ?_ []
      intro row hrow r
      obtain ⟨a1, a2, a3⟩ := row_le_sum rs row hrow
      exact rdRow_write h32 row vars.length (by omega) (hb row hrow) (by omega) (by omega) (by omega) r
    rw [List.append_nil] at hrows
    rw [hrows, modulusBytes_eq, natLE_digits]

/-! ### Witness files -/

theorem length_erase {V : Type _} (m : SMap V) (x : Variable) :
    (SMap.erase m x).length = if x ∈ SMap.keys m then m.length - 1 else m.length := by
  induction m with
  | nil => simp [SMap.erase, SMap.keys]
  | cons kv m ih =>
    obtain ⟨k, v⟩ := kv
    simp only [SMap.erase]
    by_cases h : x = k
    · rw [if_pos h, if_pos (by simp [SMap.keys, h])]
      simp
    · rw [if_neg h, List.length_cons, ih]
      have : x ∈ SMap.keys ((k, v) :: m) ↔ x ∈ SMap.keys m := by simp [SMap.keys, h]
      simp only [this]
      split
      · rename_i hm
        have : 0 < m.length := by
          cases m with
          | nil => simp [SMap.keys] at hm
          | cons => simp
        simp only [List.length_cons]
        omega
      · simp

theorem takeAll_length {V : Type _} (vs : List Variable) (w : SMap V) (xs : List V) (w' : SMap V)
    (h : takeAll w vs = some (xs, w')) : xs.length + w'.length = w.length := by
  induction vs generalizing w xs with
  | nil =>
    simp only [takeAll, Option.some.injEq, Prod.mk.injEq] at h
    obtain ⟨rfl, rfl⟩ := h
    simp
  | cons v vs ih =>
    simp only [takeAll] at h
    cases hg : SMap.get w v with
    | none => rw [hg] at h; cases h
    | some x =>
      rw [hg] at h
      simp only at h
      cases ht : takeAll (SMap.erase w v) vs with
      | none => rw [ht] at h; cases h
      | some r =>
        obtain ⟨ys, w2⟩ := r
        rw [ht] at h
        simp only [Option.some.injEq, Prod.mk.injEq] at h
        obtain ⟨rfl, rfl⟩ := h
        have := ih _ _ ht
        have hk : v ∈ SMap.keys w := by
          rw [← SMap.get_isSome_iff, hg]
          rfl
        rw [length_erase, if_pos hk] at this
        have : 0 < w.length := by
          cases w with
          | nil => simp [SMap.keys] at hk
          | cons => simp
        simp only [List.length_cons]
        omega

theorem witnessValues_length {F : Type _} (w : SMap F) (pub : VarSet) (vals : List F)
    (h : witnessValues w pub = some vals) : vals.length = w.length := by
  unfold witnessValues at h
  simp only at h
  cases h1 : takeAll (SMap.erase w Variable.one)
      ((List.range ((SMap.erase w Variable.one).filter fun kv => Variable.isOutput kv.1).length).map Variable.pub) with
  | none => rw [h1] at h; cases h
  | some r =>
    obtain ⟨outs, w1⟩ := r
    rw [h1] at h
    simp only at h
    cases h2 : takeAll w1 (SMap.keys pub) with
    | none => rw [h2] at h; cases h
    | some r =>
      obtain ⟨ins, w2⟩ := r
      rw [h2] at h
      simp only [Option.some.injEq] at h
      subst h
      have e1 := takeAll_length _ _ _ _ h1
      have e2 := takeAll_length _ _ _ _ h2
      rw [length_erase] at e1
      simp only [List.length_append, List.length_map]
      cases hg : SMap.get w Variable.one with
      | none =>
        rw [if_neg ((SMap.get_eq_none_iff _ _).1 hg)] at e1
        simp
        omega
      | some x =>
        have hk : Variable.one ∈ SMap.keys w := by
          rw [← SMap.get_isSome_iff, hg]
          rfl
        have : 0 < w.length := by
          cases w with
          | nil => simp [SMap.keys] at hk
          | cons => simp
        rw [if_pos hk] at e1
        simp
        omega

/-- Reading a `.wtns` file. -/
theorem rdWtns_write [Fact p.Prime] (w : SMap (ZMod p)) (pub : VarSet) {vals : List (ZMod p)}
    (hv : witnessValues w pub = some vals) {file : Bytes} (hw : writeWtns w pub = some file) (hsize : file.length < 2 ^ 32) :
    ∃ ss, rdFile [0x77, 0x74, 0x6e, 0x73] 2 file = some ss ∧ rdWtns ss = some (p, vals.map ZMod.val) := by
  have hvl := witnessValues_length w pub vals hv
  unfold writeWtns at hw
  rw [hv] at hw
  simp only [Option.some.injEq] at hw
  generalize hfs : (modulusBytes p).length = fs at hw
  have hp : p < 256 ^ fs := by rw [← hfs]; exact p_lt_modulus
  have hfs0 : 0 < fs := by
    rcases Nat.eq_zero_or_pos fs with h | h
    · rw [h] at hp
      have := Fld.p_ge_two (p := p)
      norm_num at hp
      omega
    · exact h
  generalize hV : (vals.flatMap fun x => padBytes fs (toBytesLe x.val)) = V at hw
  have hVl : V.length = w.length * fs := by
    rw [← hV]
    simp only [List.length_flatMap, padBytes_toBytesLe, Fld.length_bytesLE, List.map_const', List.sum_replicate, smul_eq_mul, hvl]
  generalize hH : (writeLE 4 fs ++ modulusBytes p ++ writeLE 4 w.length) = H at hw
  have hHl : H.length = 8 + fs := by
    rw [← hH]
    simp only [List.length_append, writeLE, Fld.length_bytesLE, hfs]
    omega
  have hlen : file.length = 12 + (12 + (8 + fs)) + (12 + w.length * fs) := by
    rw [← hw]
    simp only [List.length_append, writeLE, Fld.length_bytesLE, hHl, hVl, List.length_cons, List.length_nil]
    omega
  have hwl : w.length ≤ w.length * fs := Nat.le_mul_of_pos_right _ hfs0
  have e4 : (256 : ℕ) ^ 4 = 2 ^ 32 := by norm_num
  refine ⟨[(1, H), (2, V)], ?_, ?_⟩
  · unfold rdFile
    rw [← hw]
    simp only [List.append_assoc]
    rw [if_neg (by simp)]
    rw [show List.drop 4 ([0x77, 0x74, 0x6e, 0x73] ++ (writeLE 4 2 ++ (writeLE 4 2 ++ (writeLE 4 1 ++ (writeLE 8 (8 + fs) ++
        (H ++ (writeLE 4 2 ++ (writeLE 8 (w.length * fs) ++ V)))))))) =
      writeLE 4 2 ++ (writeLE 4 2 ++ (writeLE 4 1 ++ (writeLE 8 (8 + fs) ++
        (H ++ (writeLE 4 2 ++ (writeLE 8 (w.length * fs) ++ V)))))) from rfl]
    rw [rdNum_write (by norm_num)]
    simp only [ne_eq, not_true_eq_false, if_false]
    rw [rdNum_write (by norm_num)]
    simp only [rdMany]
    rw [rdSection_write (by norm_num) hHl.symm (by omega)]
    simp only
    rw [show writeLE 4 2 ++ (writeLE 8 (w.length * fs) ++ V) = writeLE 4 2 ++ (writeLE 8 (w.length * fs) ++ (V ++ [])) by
      simp, rdSection_write (by norm_num) hVl.symm (by omega)]
  · have hl1 : ([(1, H), (2, V)] : List (ℕ × Bytes)).lookup 1 = some H := by simp [List.lookup]
    have hl2 : ([(1, H), (2, V)] : List (ℕ × Bytes)).lookup 2 = some V := by simp [List.lookup]
    unfold rdWtns
    rw [hl1, hl2]
    simp only
    rw [← hH]
    simp only [List.append_assoc]
    rw [rdNum_write (by rw [e4]; omega)]
    simp only
    rw [rdNum_append hfs]
    simp only
    rw [show writeLE 4 w.length = writeLE 4 w.length ++ [] by simp, rdNum_write (by rw [e4]; omega)]
    simp only
    have hvals : rdMany (rdNum fs) vals.length (V ++ []) = some (vals.map ZMod.val, []) := by
      rw [← hV]
      refine rdMany_flatMap _ _ ZMod.val vals ?_ []
      intro x _ r
      rw [padBytes_toBytesLe, rdNum_append (Fld.length_bytesLE _ _), Fld.natLE_bytesLE,
        Nat.mod_eq_of_lt (lt_trans (Fld.val_lt x) hp)]
    rw [List.append_nil, hvl] at hvals
    rw [hvals, modulusBytes_eq, natLE_digits]

end Zok.Export
