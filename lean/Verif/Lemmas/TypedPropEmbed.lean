import Verif.Lemmas.TypedPropAssign
import Verif.Lemmas.BooleanArray
import Verif.Lemmas.Deterministic
import Verif.Lemmas.Field
import Verif.Spec.HonestFlat

/-
Constant propagation on typed programs: calls of embedded functions.
-/

set_option linter.unusedSectionVars false
set_option linter.unusedSimpArgs false

namespace Zok.Typed
open Abi
variable {p : ℕ} [Fact p.Prime] {Z : Type}

/-! ### Bits -/

theorem bitsLoop_spec : ∀ (n a : ℕ), (bitsLoop n a).1.length = n ∧ a = natBE (bitsLoop n a).1 + (bitsLoop n a).2
  | 0, a => by simp [bitsLoop, natBE]
  | n + 1, a => by
    simp only [bitsLoop]
    split
    · obtain ⟨h1, h2⟩ := bitsLoop_spec n (a - 2 ^ n)
      simp only [List.length_cons, h1, natBE, Bool.toNat_true, one_mul, true_and]
      omega
    · obtain ⟨h1, h2⟩ := bitsLoop_spec n a
      simp only [List.length_cons, h1, natBE, Bool.toNat_false, zero_mul, true_and]
      omega

theorem bitsLoop_rem : ∀ (n a : ℕ), a < 2 ^ n → (bitsLoop n a).2 = 0
  | 0, a, h => by simpa [bitsLoop] using h
  | n + 1, a, h => by
    simp only [bitsLoop]
    split
    · exact bitsLoop_rem n _ (by rw [pow_succ] at h; omega)
    · exact bitsLoop_rem n _ (by omega)

theorem bitsLoop_eq {n a : ℕ} (h : a < 2 ^ n) : bitsLoop n a = (bitsBE n a, 0) := by
  obtain ⟨h1, h2⟩ := bitsLoop_spec n a
  have h3 := bitsLoop_rem n a h
  refine Prod.ext ?_ h3
  refine natBE_inj (by simp [h1]) ?_
  rw [natBE_bitsBE_of_lt h]
  simp only [h3] at h2
  omega

theorem bitsLoop_zero {n a : ℕ} {bl : List Bool} (h : bitsLoop n a = (bl, 0)) : a < 2 ^ n ∧ bl = bitsBE n a := by
  obtain ⟨h1, h2⟩ := bitsLoop_spec n a
  rw [h] at h1 h2
  simp only [Nat.add_zero] at h1 h2
  subst h2
  have := natBE_lt bl
  rw [h1] at this
  refine ⟨this, ?_⟩
  rw [← h1]
  exact (bitsBE_natBE bl).symm

theorem unpackLoop_spec : ∀ (n : ℕ) (x : ZMod p), (unpackLoop n x).1.length = n ∧ x = (natBE (unpackLoop n x).1 : ℕ) + (unpackLoop n x).2
  | 0, x => by simp [unpackLoop, natBE]
  | n + 1, x => by
    simp only [unpackLoop]
    split
    · obtain ⟨h1, h2⟩ := unpackLoop_spec n (x - 2 ^ n)
      simp only [List.length_cons, h1, natBE, Bool.toNat_true, one_mul, true_and]
      push_cast
      rw [add_assoc, ← h2]
      ring
    · obtain ⟨h1, h2⟩ := unpackLoop_spec n x
      simp only [List.length_cons, h1, natBE, Bool.toNat_false, zero_mul, Nat.zero_add, true_and]
      exact h2

theorem pow_val {i : ℕ} (hp : p ≠ 2) (h : i < Fld.requiredBits p) : ((2 : ZMod p) ^ i).val = 2 ^ i := by
  have h1 := Fld.two_pow_lt (p := p) hp
  have h2 : 2 ^ i ≤ 2 ^ (Fld.requiredBits p - 1) := Nat.pow_le_pow_right (by norm_num) (by omega)
  have : ((2 ^ i : ℕ) : ZMod p).val = 2 ^ i := ZMod.val_cast_of_lt (by omega)
  simpa using this

theorem unpackLoop_bits (hp : p ≠ 2) : ∀ (n : ℕ) (x : ZMod p), n ≤ Fld.requiredBits p → (unpackLoop n x).1 = (bitsLoop n x.val).1 ∧
    (unpackLoop n x).2.val = (bitsLoop n x.val).2
  | 0, x, _ => by simp [unpackLoop, bitsLoop]
  | n + 1, x, h => by
    simp only [unpackLoop, bitsLoop, pow_val hp (show n < _ by omega)]
    split
    · rename_i hle
      obtain ⟨h1, h2⟩ := unpackLoop_bits hp n (x - 2 ^ n) (by omega)
      have : (x - 2 ^ n).val = x.val - 2 ^ n := by
        rw [ZMod.val_sub (by rw [pow_val hp (by omega)]; exact hle), pow_val hp (by omega)]
      rw [this] at h1 h2
      exact ⟨by rw [h1], h2⟩
    · obtain ⟨h1, h2⟩ := unpackLoop_bits hp n x (by omega)
      exact ⟨by rw [h1], h2⟩

theorem unpackLoop_zero (hp : p ≠ 2) {n : ℕ} (h : n ≤ Fld.requiredBits p) {x : ZMod p} {bl : List Bool} : unpackLoop n x = (bl, 0) ↔ x.val < 2 ^ n ∧ bl = bitsBE n x.val := by
  obtain ⟨h1, h2⟩ := unpackLoop_bits hp n x h
  constructor
  · intro he
    rw [he] at h1 h2
    simp only [ZMod.val_zero] at h1 h2
    exact bitsLoop_zero (Prod.ext h1.symm h2.symm)
  · rintro ⟨g1, rfl⟩
    rw [bitsLoop_eq g1] at h1 h2
    exact Prod.ext h1 ((ZMod.val_eq_zero _).mp h2)

/-- The sum of `process_u_from_bits`. -/
theorem fromBits_sum (w : ℕ) : ∀ (bs : List Bool) (k acc : ℕ), bs.length + k = w →
    (bs.zipIdx k).foldl (fun acc bi => if bi.1 then acc + 2 ^ (w - bi.2 - 1) else acc) acc = acc + natBE bs
  | [], k, acc, _ => by simp [natBE]
  | b :: bs, k, acc, h => by
    simp only [List.length_cons] at h
    simp only [List.zipIdx_cons, List.foldl_cons]
    rw [fromBits_sum w bs (k + 1) _ (by omega)]
    have : w - k - 1 = bs.length := by omega
    cases b <;> simp only [natBE, this, Bool.toNat_true, Bool.toNat_false, if_true, Bool.false_eq_true, if_false, one_mul, zero_mul, Nat.zero_add, Nat.add_assoc]

/-! ### Calls -/

theorem boolsOf_ok {es : List (TSpread (ZMod p))} {bs : List Bool} (h : boolsOf es = .ok bs) : es = bs.map fun b => .expr (.bval b) := by
  induction es generalizing bs with
  | nil => simp only [boolsOf] at h; cases h; rfl
  | cons e es ih =>
    unfold boolsOf at h
    split at h
    · rename_i he; cases he
    · rename_i b es' he
      cases he
      obtain ⟨bs', h1, h⟩ := pbind_ok h
      cases h
      rw [ih h1]
      rfl
    · cases h

theorem boolsOf_undetected {es : List (TSpread (ZMod p))} {er : PErr} (h : boolsOf es = .error er) : ¬ er.Detected := by
  induction es with
  | nil => simp only [boolsOf] at h; cases h
  | cons e es ih =>
    unfold boolsOf at h
    split at h
    · cases h
    · rename_i b es' he
      cases he
      rcases perr_bind h with h | ⟨_, _, h⟩
      · exact ih h
      · cases h
    · cases h; simp [PErr.Detected]

theorem boolArray_eq (n : ℕ) (bs : List Bool) : (boolArray n bs : TExpr (ZMod p)) = .array .bool n ((bs.map TExpr.bval).map TSpread.expr) := by
  simp only [boolArray, List.map_map]
  rfl

theorem denotes_bools (bs : List Bool) : List.Forall₂ Denotes (bs.map (TExpr.bval (F := ZMod p))) (bs.map AVal.bool) := by
  induction bs with
  | nil => exact .nil
  | cons b bs ih => exact .cons (fun env => by simp only [evalT]) ih

theorem primsL_bools (bs : List Bool) : primsL (bs.map (AVal.bool (F := ZMod p))) = bs.map ZVal.bool := by
  induction bs with
  | nil => rfl
  | cons b bs ih => simp only [List.map_cons, primsL, prims, ih, List.singleton_append]

theorem typeOk_bool : TypeOk .bool := by simp [TypeOk, CType.Distinct, CType.Small, primCount]

theorem boolArray_good {n : ℕ} {bs : List Bool} (h : bs.length = n) : Good (boolArray n bs : TExpr (ZMod p)) ∧ (boolArray n bs : TExpr (ZMod p)).ty = .array n .bool ∧
    Denotes (boolArray n bs : TExpr (ZMod p)) (.array (bs.map .bool)) := by
  rw [boolArray_eq]
  refine ⟨good_array_of typeOk_bool (by simpa using h) (fun x hx => ?_) (denotes_bools bs), rfl, denotes_array (denotes_bools bs)⟩
  obtain ⟨b, _, rfl⟩ := List.mem_map.mp hx
  exact ⟨trivial, trivial, rfl⟩

theorem uwOf_bits {w : ℕ} {u : UW} (h : uwOf w = some u) : u.bits = w ∧ embedTy (.uFromBits w) g = some (.uint u) := by
  unfold uwOf at h
  split at h <;> cases h <;> exact ⟨rfl, rfl⟩

/-- The call of an embedded function on constants is the value it returns at run time. -/
theorem foldEmbed_some {f : Embed} {g : List ℕ} {args : List (TExpr (ZMod p))} {e : TExpr (ZMod p)} {t : CType} (h : foldEmbed f g args = .ok (some e)) (hw : WtL args)
    (ha : embedArgs f g (args.map TExpr.ty)) (ht : embedTy f g = some t) : Good e ∧ e.ty = t ∧ ∃ v, Denotes e v ∧ ∀ env vs, evalL env args = .ok vs →
      (f ≠ .unpack ∧ ∀ O : Oracle p Z, EmbedRes O f g (primsL vs) (.ok (prims v))) ∨
      (f = .unpack ∧ ∃ n x bl, g = [n] ∧ primsL vs = [.field x] ∧ unpackLoop n x = (bl, 0) ∧ prims v = bl.map .bool) := by
  cases f with
  | bitArrayLe => simp only [foldEmbed] at h; cases h
  | fieldToBoolUnsafe =>
    simp only [embedArgs] at ha
    simp only [embedTy, Option.some.injEq] at ht
    subst ht
    cases args with
    | nil => simp at ha
    | cons a args =>
      simp only [List.map_cons, List.cons.injEq, List.map_eq_nil_iff] at ha
      obtain ⟨ha, rfl⟩ := ha
      simp only [foldEmbed] at h
      split at h
      · rename_i n hn
        have hvs : ∀ env vs, evalL env [a] = .ok vs → primsL vs = [.field n] := fun env vs hv => by
          obtain ⟨x, xs, h1, h2, rfl, _⟩ := cons_ok hv
          rw [field_lit hn] at h1
          cases h1
          simp only [evalL] at h2
          cases h2
          rfl
        split at h
        · rename_i h0
          cases h
          refine ⟨⟨trivial, trivial, .bool false, fun env => by simp only [evalT]⟩, rfl, .bool false, fun env => by simp only [evalT], fun env vs hv => .inl ⟨by simp, fun O => ?_⟩⟩
          rw [hvs env vs hv, h0]
          have := EmbedRes.castBool (O := O) g false
          simpa [boolF, prims] using this
        · split at h
          · rename_i h1
            cases h
            refine ⟨⟨trivial, trivial, .bool true, fun env => by simp only [evalT]⟩, rfl, .bool true, fun env => by simp only [evalT], fun env vs hv => .inl ⟨by simp, fun O => ?_⟩⟩
            rw [hvs env vs hv, h1]
            have := EmbedRes.castBool (O := O) g true
            simpa [boolF, prims] using this
          · cases h
      · cases h
  | uFromBits w =>
    simp only [foldEmbed] at h
    split at h
    · rename_i a u hu
      obtain ⟨hb, ht'⟩ := uwOf_bits (g := g) hu
      rw [ht'] at ht
      cases ht
      obtain ⟨c, h1, h⟩ := pbind_ok h
      split at h
      · rename_i es hes
        obtain ⟨bs, h2, h⟩ := pbind_ok h
        have h2 := boolsOf_ok h2
        split at h
        · cases h
        · cases h
          obtain ⟨t, n, rfl⟩ := arrayOf_some hes
          obtain ⟨v, d1, d2, ty, wt, cn⟩ := canon_spec a _ h1 hw.1
          simp only [embedArgs, List.map_cons, List.map_nil, List.cons.injEq, and_true] at ha
          rw [ha] at ty
          simp only [TExpr.ty, CType.array.injEq] at ty
          obtain ⟨rfl, rfl⟩ := ty
          have hbe : (TExpr.array .bool n es : TExpr (ZMod p)) = boolArray n bs := by rw [h2]; rfl
          rw [hbe] at d2 wt cn
          rw [boolArray_eq] at wt
          have hl : bs.length = n := by simpa using (spreadCount_map.mp wt.2.1).symm
          obtain ⟨g1, g2, g3⟩ := boolArray_good (p := p) hl
          have := denotes_inj d2 g3
          subst this
          have hs := fromBits_sum n bs 0 0 (by omega)
          simp only [Nat.zero_add] at hs
          rw [hs]
          have hlt : natBE bs < 2 ^ u.bits := by rw [hb, ← hl]; exact natBE_lt bs
          refine ⟨⟨trivial, hlt, .uint u (natBE bs), fun env => by simp only [evalT]⟩, rfl, .uint u (natBE bs), fun env => by simp only [evalT],
            fun env vs hv => .inl ⟨by simp, fun O => ?_⟩⟩
          obtain ⟨x, xs, k1, k2, rfl, _⟩ := cons_ok hv
          rw [d1 env] at k1
          cases k1
          simp only [evalL] at k2
          cases k2
          simp only [primsL, prims, List.append_nil, primsL_bools, hb]
          rw [← hl]
          exact .fromBits g bs
      · cases h
    · cases h
  | uToBits w =>
    simp only [embedTy, Option.some.injEq] at ht
    subst ht
    simp only [foldEmbed] at h
    split at h
    · rename_i a
      split at h
      · rename_i n hn
        split at h
        · rename_i h0
          cases h
          obtain ⟨u, rfl⟩ := litU_some hn
          obtain ⟨u', rfl, hu⟩ := ha
          simp only [List.map_cons, List.map_nil, List.cons.injEq, and_true, TExpr.ty, CType.uint.injEq] at hu
          subst hu
          have hlt : n < 2 ^ u.bits := hw.1
          rw [bitsLoop_eq hlt]
          obtain ⟨g1, g2, g3⟩ := boolArray_good (p := p) (bs := bitsBE u.bits n) (n := u.bits) (by simp)
          refine ⟨g1, g2, _, g3, fun env vs hv => .inl ⟨by simp, fun O => ?_⟩⟩
          obtain ⟨x, xs, k1, k2, rfl, _⟩ := cons_ok hv
          simp only [evalT] at k1
          cases k1
          simp only [evalL] at k2
          cases k2
          simp only [primsL, prims, List.append_nil, primsL_bools]
          exact .toBits g u.bits n
        · cases h
      · cases h
    · cases h
  | unpack =>
    simp only [foldEmbed] at h
    split at h
    · rename_i a n
      simp only [embedTy, Option.some.injEq] at ht
      subst ht
      split at h
      · rename_i x hx
        split at h
        · rename_i h0
          cases h
          obtain ⟨l1, l2⟩ := unpackLoop_spec n x
          obtain ⟨g1, g2, g3⟩ := boolArray_good (p := p) l1
          refine ⟨g1, g2, _, g3, fun env vs hv => .inr ⟨rfl, n, x, (unpackLoop n x).1, rfl, ?_, Prod.ext rfl h0, by simp only [prims, primsL_bools]⟩⟩
          obtain ⟨y, xs, k1, k2, rfl, _⟩ := cons_ok hv
          rw [field_lit hx] at k1
          cases k1
          simp only [evalL] at k2
          cases k2
          rfl
        · cases h
      · cases h
    · cases h

/-- If a call on constants fails at compile time, it does not return at run time either. -/
theorem foldEmbed_error {O : Oracle p Z} {f : Embed} {g : List ℕ} {args : List (TExpr (ZMod p))} {er : PErr} {env : TEnv p} {vs : List (AVal (ZMod p))} {rs : List (ZVal p)}
    {a : TAssignee (ZMod p)} {xs : List (TExpr (ZMod p))} (hu : (TStmt.embed a f g xs).UnpackOnly O) (h : foldEmbed f g args = .error er)
    (hv : evalL env args = .ok vs) (hr : EmbedRes O f g (primsL vs) (.ok rs)) : ¬ er.Detected := by
  intro hd
  cases f with
  | bitArrayLe => simp only [foldEmbed] at h; cases h
  | fieldToBoolUnsafe =>
    simp only [foldEmbed] at h
    split at h
    · rename_i e es
      split at h
      · rename_i n hn
        split at h
        · cases h
        · split at h
          · cases h
          · rename_i h0 h1
            obtain ⟨x, xs, k1, k2, rfl, _⟩ := cons_ok hv
            rw [field_lit hn] at k1
            cases k1
            generalize hq : primsL _ = q at hr
            cases hr with
            | castBool g b =>
              simp only [primsL, prims, List.cons_append, List.nil_append, List.cons.injEq, ZVal.field.injEq] at hq
              obtain ⟨hq, _⟩ := hq
              cases b <;> simp [boolF] at hq <;> simp_all
      · cases h
    · cases h; exact hd
  | uFromBits w =>
    simp only [foldEmbed] at h
    split at h
    · rcases perr_bind h with h | ⟨c, h1, h⟩
      · exact canon_undetected h hd
      · split at h
        · rcases perr_bind h with h | ⟨bs, h2, h⟩
          · exact boolsOf_undetected h hd
          · split at h <;> cases h
            exact hd
        · cases h; exact hd
    · cases h; exact hd
  | uToBits w =>
    simp only [foldEmbed] at h
    repeat' split at h
    all_goals first | cases h; exact hd | cases h
  | unpack =>
    simp only [foldEmbed] at h
    split at h
    · rename_i e n
      split at h
      · rename_i x hx
        split at h
        · cases h
        · rename_i h0
          obtain ⟨y, ys, k1, k2, rfl, _⟩ := cons_ok hv
          rw [field_lit hx] at k1
          cases k1
          generalize hq : primsL _ = q at hr
          cases hr with
          | unpack n x' bl ho =>
            simp only [primsL, prims, List.cons_append, List.nil_append, List.cons.injEq, ZVal.field.injEq] at hq
            obtain ⟨rfl, _⟩ := hq
            exact h0 (by rw [hu _ _ ho])
      · cases h; exact hd
    · cases h; exact hd

end Zok.Typed
