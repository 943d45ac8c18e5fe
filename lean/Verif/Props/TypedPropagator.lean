import Verif.Lemmas.TypedPropShape
import Verif.Spec.Replaces
import Verif.Spec.BigField

/-
C54: constant propagation on typed programs. `f` is a typed function, in which calls have been inlined and loops unrolled, and `g` what `Propagator` makes of it.
-/

set_option linter.unusedSectionVars false
set_option linter.unusedSimpArgs false

namespace Zok.Typed
open Abi
variable {p : ℕ} {Z : Type} [Fact p.Prime] {O : Oracle p Z} {f g : TFun (ZMod p)}

theorem goodC_none : GoodC (fun _ => none : Consts (ZMod p)) := fun _ _ h => by cases h

theorem relC_none (σ : TState p) : RelC (fun _ => none) σ σ := ⟨rfl, ⟨fun _ _ => rfl, fun _ _ h => by cases h⟩⟩

theorem propagateT_ok (h : propagateT f = .ok g) : ∃ b, propStmts (fun _ => none) f.body = .ok b ∧ g = { f with body := b } := by
  simp only [propagateT] at h
  obtain ⟨b, h1, h⟩ := pbind_ok h
  cases h
  exact ⟨b, h1, rfl⟩

/-- **C54** (results). What the source returns is returned behind the propagation. -/
theorem C54_results (hw : f.Wt) (ha : ∀ s ∈ f.body, s.ArgsTyped) (hu : ∀ s ∈ f.body, s.UnpackOnly O) (h : propagateT f = .ok g) {args : List (AVal (ZMod p))}
    {out : AVal (ZMod p)} (hr : ReturnsT O f args out) : ReturnsT O g args out := by
  obtain ⟨b, h1, rfl⟩ := propagateT_ok h
  obtain ⟨ht, σ, hx, ho⟩ := hr
  obtain ⟨τ, C', h2, h3⟩ := propStmts_fwd goodC_none (fun s hs => ⟨hw.body s hs, ha s hs⟩) hu h1 _ _ σ (relC_none _) hx
  exact ⟨ht, τ, h2, by rw [h3.out]; exact ho⟩

/-- **C54** (assertions). Where an assertion of the source fails, one fails behind the propagation: an assertion is removed only if it always holds. -/
theorem C54_assertions (hw : f.Wt) (ha : ∀ s ∈ f.body, s.ArgsTyped) (hu : ∀ s ∈ f.body, s.UnpackOnly O) (h : propagateT f = .ok g) {args : List (AVal (ZMod p))}
    (hr : AssertFailsT O f args) : AssertFailsT O g args := by
  obtain ⟨b, h1, rfl⟩ := propagateT_ok h
  obtain ⟨ht, pre, e, err, post, σ, hb, hx, he⟩ := hr
  have hw' := fun s hs => And.intro (hw.body s hs) (ha s hs)
  rw [hb] at h1 hw' hu
  obtain ⟨pre', e', err', post', τ, k1, k2, k3⟩ := propStmts_asr goodC_none hw' (fun s hs => hu s (by simp [hs])) h1 _ _ σ (relC_none _) hx he
  exact ⟨ht, pre', e', err', post', τ, k1, k2, k3⟩

/-- **C54** (nothing new is returned). What is returned behind the propagation is returned by the source, unless the source fails on these arguments. -/
theorem C54_no_new_results (hw : f.Wt) (ha : ∀ s ∈ f.body, s.ArgsTyped) (hu : ∀ s ∈ f.body, s.UnpackSome O) (h : propagateT f = .ok g) {args : List (AVal (ZMod p))}
    {out : AVal (ZMod p)} (hr : ReturnsT O g args out) : ReturnsT O f args out ∨ ∃ e, FaultsT O f args e := by
  obtain ⟨b, h1, rfl⟩ := propagateT_ok h
  obtain ⟨ht, τ, hx, ho⟩ := hr
  rcases (propStmts_bwd goodC_none (fun s hs => ⟨hw.body s hs, ha s hs⟩) hu h1 _ _ (relC_none _)).1 τ hx with ⟨σ, C', h2, h3⟩ | ⟨e, h2⟩
  · exact .inl ⟨ht, σ, h2, by rw [← h3.out]; exact ho⟩
  · exact .inr ⟨e, ht, h2⟩

/-- **C54** (no new failures). Where the function fails behind the propagation, the source fails. -/
theorem C54_no_new_failures (hw : f.Wt) (ha : ∀ s ∈ f.body, s.ArgsTyped) (hu : ∀ s ∈ f.body, s.UnpackSome O) (h : propagateT f = .ok g) {args : List (AVal (ZMod p))}
    {e : Fault} (hr : FaultsT O g args e) : ∃ e', FaultsT O f args e' := by
  obtain ⟨b, h1, rfl⟩ := propagateT_ok h
  obtain ⟨ht, hx⟩ := hr
  obtain ⟨e', h2⟩ := (propStmts_bwd goodC_none (fun s hs => ⟨hw.body s hs, ha s hs⟩) hu h1 _ _ (relC_none _)).2 e hx
  exact ⟨e', ht, h2⟩

/-- **C54** (same function). All of them. -/
theorem C54_same_function (hw : f.Wt) (ha : ∀ s ∈ f.body, s.ArgsTyped) (hu : ∀ s ∈ f.body, s.UnpackOnly O ∧ s.UnpackSome O) (h : propagateT f = .ok g) :
    Replaces O f g where
  results := fun _ _ => C54_results hw ha (fun s hs => (hu s hs).1) h
  noNewResults := fun _ _ => C54_no_new_results hw ha (fun s hs => (hu s hs).2) h
  noNewFailures := fun _ _ => C54_no_new_failures hw ha (fun s hs => (hu s hs).2) h
  assertions := fun _ => C54_assertions hw ha (fun s hs => (hu s hs).1) h

/-- **C54** (rejected programs). If the propagation rejects a function because of an assertion, an argument of an embedded function, an index or a divisor, then the
function cannot return anything, whatever its arguments are: there is nothing that could be proved with it. -/
theorem C54_rejected (hw : f.Wt) (ha : ∀ s ∈ f.body, s.ArgsTyped) (hu : ∀ s ∈ f.body, s.UnpackOnly O) {er : PErr} (h : propagateT f = .error er) (hd : er.Detected)
    (args : List (AVal (ZMod p))) (out : AVal (ZMod p)) : ¬ ReturnsT O f args out := by
  rintro ⟨-, σ, hx, -⟩
  have h1 : propStmts (fun _ => none) f.body = .error er := by
    simp only [propagateT] at h
    rcases perr_bind h with h | ⟨b, h1, h⟩
    · exact h
    · cases h
  exact propStmts_rejected hd goodC_none (fun s hs => ⟨hw.body s hs, ha s hs⟩) hu h1 _ σ (relC_none _) hx

/-- **C54** (what the following passes need). The result is well-typed, and has the same signature; variables are variables of the source; embedded functions are called
with arguments of the types of their parameters; calls still assign new variables, at literal indices; and assignments do not depend on the order in which components
are computed, if those of the source do not. -/
theorem C54_shape (hw : f.Wt) (ha : ∀ s ∈ f.body, s.ArgsTyped) (h : propagateT f = .ok g) :
    g.Wt ∧ g.params = f.params ∧ g.ret = f.ret ∧ (∀ s ∈ g.body, s.ArgsTyped) ∧ (∀ x ∈ g.vars, x ∈ f.vars) ∧ (ConstantCalls f.body → ConstantCalls g.body) ∧
    (FreshCalls (f.params.map TParam.id) f.body → FreshCalls (g.params.map TParam.id) g.body) ∧ ((∀ s ∈ f.body, s.InOrder) → ∀ s ∈ g.body, s.InOrder) ∧
    ((∀ s ∈ f.body, s.OracleFree) → ∀ s ∈ g.body, s.OracleFree) := by
  obtain ⟨b, h1, rfl⟩ := propagateT_ok h
  have hwa := fun s hs => And.intro (hw.body s hs) (ha s hs)
  have ht := propStmts_typed goodC_none hwa h1
  have hs := propStmts_shape goodC_none hwa h1
  refine ⟨⟨hw.params, hw.ret, fun s hm => (ht s hm).1⟩, rfl, rfl, fun s hm => (ht s hm).2, fun x hx => ?_, fun hc a f g args hm => ?_, fun hf => ?_,
    fun ho s hm => ?_, fun ho s hm => ?_⟩
  · rcases List.mem_append.mp hx with hx | hx
    · exact List.mem_append_left _ hx
    · obtain ⟨s', h2, h3⟩ := List.mem_flatMap.mp hx
      obtain ⟨s, h4, h5⟩ := hs s' h2
      exact List.mem_append_right _ (List.mem_flatMap.mpr ⟨s, h4, h5.vars x h3⟩)
  · obtain ⟨s, h4, h5⟩ := hs _ hm
    obtain ⟨a0, args0, rfl, -, hcc⟩ := h5.call _ _ _ _ rfl
    exact hcc (hc _ _ _ _ h4)
  · exact propStmts_fresh goodC_none hwa (fun x hx => absurd rfl hx) (fun x hx => hx) hf h1
  · obtain ⟨s0, h4, h5⟩ := hs s hm
    exact h5.inOrder (ho s0 h4)
  · obtain ⟨s0, h4, h5⟩ := hs s hm
    exact h5.free (ho s0 h4)

/-! ### Bit decompositions -/

/-- **C54** (the decomposition at compile time, for any prover). Whatever the number of bits is: the bits computed at compile time are bits that the circuit admits. -/
theorem C54_unpack_admitted (s : TStmt (ZMod p)) : s.UnpackSome (Oracle.any p Z) := by
  unfold TStmt.UnpackSome
  split
  · intro x bl hb
    rename_i n _
    obtain ⟨h1, h2⟩ := unpackLoop_spec n x
    rw [hb] at h1 h2
    simp only [add_zero] at h1 h2
    exact ⟨h1, h2.symm⟩
  · trivial

/-- **C54** (the decomposition at compile time, for the honest prover). With at most as many bits as the modulus has, it is the one that the solver computes. -/
theorem C54_unpack_honest (hp : p ≠ 2) {sem : SolverSem (ZMod p) Z} {s : TStmt (ZMod p)} (hs : s.UnpackWithin (Fld.requiredBits p)) :
    s.UnpackOnly (Oracle.honest sem) ∧ s.UnpackSome (Oracle.honest sem) := by
  unfold TStmt.UnpackOnly TStmt.UnpackSome
  unfold TStmt.UnpackWithin at hs
  split
  · rename_i a n args
    exact ⟨fun x bl h => (unpackLoop_zero hp hs).2 h, fun x bl h => (unpackLoop_zero hp hs).1 h⟩
  · exact ⟨trivial, trivial⟩

/-- **C54** (with fewer bits than the modulus has). Then the circuit admits no other bits. -/
theorem C54_unpack_only (hp : p ≠ 2) {s : TStmt (ZMod p)} (hs : s.UnpackWithin (Fld.requiredBits p - 1)) : s.UnpackOnly (Oracle.any p Z) := by
  unfold TStmt.UnpackOnly
  unfold TStmt.UnpackWithin at hs
  split
  · rename_i a n args
    rintro x bl ⟨h1, h2⟩
    have h3 := Fld.two_pow_lt (p := p) hp
    have h4 : natBE bl < 2 ^ n := by rw [← h1]; exact natBE_lt bl
    have h5 : 2 ^ n ≤ 2 ^ (Fld.requiredBits p - 1) := Nat.pow_le_pow_right (by norm_num) hs
    have h6 : x.val = natBE bl := by rw [← h2]; exact ZMod.val_cast_of_lt (by omega)
    refine (unpackLoop_zero hp (by simp only at hs; omega)).2 ⟨by omega, ?_⟩
    refine natBE_inj (by simp [h1]) ?_
    rw [natBE_bitsBE_of_lt (by omega), h6]
  · trivial

/-- **C54** (no bit decompositions). Calls of other embedded functions meet all conditions. -/
theorem C54_unpack_free {s : TStmt (ZMod p)} (hs : s.OracleFree) : s.UnpackOnly O ∧ s.UnpackSome O := by
  unfold TStmt.UnpackOnly TStmt.UnpackSome
  split
  · exact absurd rfl hs
  · exact ⟨trivial, trivial⟩

/-- **C54** (one prover, one verifier). For the honest prover nothing changes as long as field elements are decomposed into at most as many bits as the modulus has. -/
theorem C54_honest (hp : p ≠ 2) {sem : SolverSem (ZMod p) Z} (hw : f.Wt) (ha : ∀ s ∈ f.body, s.ArgsTyped) (hs : ∀ s ∈ f.body, s.UnpackWithin (Fld.requiredBits p))
    (h : propagateT f = .ok g) : Replaces (Oracle.honest sem) f g :=
  C54_same_function hw ha (fun s hm => C54_unpack_honest hp (hs s hm)) h

/-- Values of field expressions with bitwise operators, which occur in the hints of assembly statements only: the operators work on the integers between `0` and `p - 1`,
shifts keep as many bits as the modulus has. -/
structure BitsInterp (val : TExpr (ZMod p) → ZMod p) : Prop where
  lit : ∀ a, val (.fval a) = a
  and : ∀ l r, val (.fbin .and l r) = (((val l).val &&& (val r).val : ℕ) : ZMod p)
  or : ∀ l r, val (.fbin .or l r) = (((val l).val ||| (val r).val : ℕ) : ZMod p)
  xor : ∀ l r, val (.fbin .xor l r) = (((val l).val ^^^ (val r).val : ℕ) : ZMod p)
  shl : ∀ l w k, val (.fubin .shl l (.uval w k)) = (((val l).val * 2 ^ k % 2 ^ Fld.requiredBits p : ℕ) : ZMod p)
  shr : ∀ l w k, val (.fubin .shr l (.uval w k)) = (((val l).val / 2 ^ k : ℕ) : ZMod p)

theorem ofNat?_ok {n : ℕ} {e : TExpr (ZMod p)} (h : ofNat? n = .ok e) : e = .fval (n : ZMod p) := by
  unfold ofNat? at h
  split at h
  · cases h; rfl
  · cases h

/-- **C54** (bitwise operators on field elements). Folding keeps the value of the bitwise operators and shifts on field elements. -/
theorem C54_field_bits {val : TExpr (ZMod p) → ZMod p} (hv : BitsInterp val) {l r e : TExpr (ZMod p)} :
    (foldF .and l r = .ok e → val e = (((val l).val &&& (val r).val : ℕ) : ZMod p)) ∧ (foldF .or l r = .ok e → val e = (((val l).val ||| (val r).val : ℕ) : ZMod p)) ∧
    (foldF .xor l r = .ok e → val e = (((val l).val ^^^ (val r).val : ℕ) : ZMod p)) ∧
    (∀ w k, r = .uval w k → (foldFU .shl l r = .ok e → val e = (((val l).val * 2 ^ k % 2 ^ Fld.requiredBits p : ℕ) : ZMod p)) ∧
      (foldFU .shr l r = .ok e → val e = (((val l).val / 2 ^ k : ℕ) : ZMod p))) := by
  have hself : ∀ a : ZMod p, (((a.val : ℕ)) : ZMod p) = a := fun a => by rw [ZMod.natCast_val, ZMod.cast_id]
  have hlit : ∀ {x : TExpr (ZMod p)} {a}, x.litF = some a → val x = a := fun h => by rw [litF_some h, hv.lit]
  refine ⟨fun h => ?_, fun h => ?_, fun h => ?_, ?_⟩
  · simp only [foldF] at h
    split at h
    · rename_i a b h1 h2
      rw [hlit h1, hlit h2]
      split at h
      · rename_i h0
        cases h
        rw [hv.lit]
        rcases h0 with rfl | rfl <;> simp
      · rw [ofNat?_ok h, hv.lit]
    · rename_i a h1 h2
      split at h
      · cases h
        rw [hlit h1, hv.lit]
        subst_vars
        simp
      · cases h; exact hv.and l r
    · rename_i b h1 h2
      split at h
      · cases h
        rw [hlit h2, hv.lit]
        subst_vars
        simp
      · cases h; exact hv.and l r
    · cases h; exact hv.and l r
  · simp only [foldF] at h
    split at h
    · rename_i a b h1 h2
      split at h
      · rename_i h0; subst h0; cases h; rw [hlit h2, ZMod.val_zero, Nat.or_zero, hself]
      · split at h
        · rename_i h0; subst h0; cases h; rw [hlit h1, ZMod.val_zero, Nat.zero_or, hself]
        · rw [ofNat?_ok h, hv.lit, hlit h1, hlit h2]
    · rename_i a h1 h2
      split at h
      · rename_i h0; subst h0; cases h; rw [hlit h1, ZMod.val_zero, Nat.zero_or, hself]
      · cases h; exact hv.or l r
    · rename_i b h1 h2
      split at h
      · rename_i h0; subst h0; cases h; rw [hlit h2, ZMod.val_zero, Nat.or_zero, hself]
      · cases h; exact hv.or l r
    · cases h; exact hv.or l r
  · have heq : l = r → val (.fval 0) = (((val l).val ^^^ (val r).val : ℕ) : ZMod p) := by rintro rfl; rw [hv.lit, Nat.xor_self]; simp
    simp only [foldF] at h
    split at h
    · rename_i a b h1 h2
      rw [ofNat?_ok h, hv.lit, hlit h1, hlit h2]
    · rename_i a h1 h2
      split at h
      · rename_i h0; subst h0; cases h; rw [hlit h1, ZMod.val_zero, Nat.zero_xor, hself]
      · split at h
        · rename_i h0; cases h; exact heq h0
        · cases h; exact hv.xor l r
    · rename_i b h1 h2
      split at h
      · rename_i h0; subst h0; cases h; rw [hlit h2, ZMod.val_zero, Nat.xor_zero, hself]
      · split at h
        · rename_i h0; cases h; exact heq h0
        · cases h; exact hv.xor l r
    · split at h
      · rename_i h0; cases h; exact heq h0
      · cases h; exact hv.xor l r
  · have hlt : ∀ a : ZMod p, a.val < 2 ^ Fld.requiredBits p := fun a => lt_of_lt_of_le (ZMod.val_lt a) (Nat.lt_size_self p).le
    rintro w k rfl
    refine ⟨fun h => ?_, fun h => ?_⟩
    · simp only [foldFU, TExpr.litU] at h
      split at h
      · rename_i h0; subst h0; cases h; rw [pow_zero, mul_one, Nat.mod_eq_of_lt (hlt _), hself]
      · split at h
        · rename_i h0
          cases h
          rw [hv.lit, Nat.mod_eq_zero_of_dvd (Dvd.dvd.mul_left (pow_dvd_pow 2 h0) _)]
          simp
        · split at h
          · rename_i h1
            rw [ofNat?_ok h, hv.lit, hlit h1, land_mask]
          · cases h; exact hv.shl l w k
    · simp only [foldFU, TExpr.litU] at h
      split at h
      · rename_i h0; subst h0; cases h; rw [pow_zero, Nat.div_one, hself]
      · split at h
        · rename_i h0
          cases h
          rw [hv.lit, Nat.div_eq_of_lt (lt_of_lt_of_le (hlt _) (Nat.pow_le_pow_right (by norm_num) h0))]
          simp
        · split at h
          · rename_i h1
            rw [ofNat?_ok h, hv.lit, hlit h1]
          · cases h; exact hv.shr l w k

/-- Such a valuation, with `0` for everything else. -/
def bitsVal : TExpr (ZMod p) → ZMod p
  | .fval a => a
  | .fbin .and l r => (((bitsVal l).val &&& (bitsVal r).val : ℕ) : ZMod p)
  | .fbin .or l r => (((bitsVal l).val ||| (bitsVal r).val : ℕ) : ZMod p)
  | .fbin .xor l r => (((bitsVal l).val ^^^ (bitsVal r).val : ℕ) : ZMod p)
  | .fubin .shl l (.uval _ k) => (((bitsVal l).val * 2 ^ k % 2 ^ Fld.requiredBits p : ℕ) : ZMod p)
  | .fubin .shr l (.uval _ k) => (((bitsVal l).val / 2 ^ k : ℕ) : ZMod p)
  | _ => 0

example : BitsInterp (bitsVal (p := p)) := by constructor <;> intros <;> simp [bitsVal]

end Zok.Typed
