import Verif.Spec.Calls
import Verif.Lemmas.TypedVals
import Verif.Lemmas.TypedPropEmbed

/-
A program logic for programs with loops and calls: `WP σ ss R` says that the statements `ss` can be executed from `σ`, and that all results satisfy `R`.
-/

set_option linter.unusedSectionVars false

namespace Zok.Typed
open Abi
variable {p : ℕ} {Z : Type} [Fact p.Prime] {O : Oracle p Z} {P : Program (ZMod p)}

/-- The statements can be executed, and all results satisfy `R`. -/
def WP (O : Oracle p Z) (P : Program (ZMod p)) (σ : TState p) (ss : List (SStmt (ZMod p))) (R : Except Fault (TState p) → Prop) : Prop :=
  (∃ r, ExecSs O P σ ss r) ∧ ∀ r, ExecSs O P σ ss r → R r

/-- For the value of a call in a state. -/
def CWP (O : Oracle p Z) (P : Program (ZMod p)) (σ : TState p) (t : CType) (key : ℕ) (gens args : List (TExpr (ZMod p))) (R : Except Fault (AVal (ZMod p)) → Prop) : Prop :=
  (∃ r, ExecCall O P σ t key gens args r) ∧ ∀ r, ExecCall O P σ t key gens args r → R r

/-- For the call of a function. -/
def FWP (O : Oracle p Z) (P : Program (ZMod p)) (i : Inst (ZMod p)) (vs : List (AVal (ZMod p))) (R : Except Fault (AVal (ZMod p)) → Prop) : Prop :=
  (∃ r, Calls O P i vs r) ∧ ∀ r, Calls O P i vs r → R r

/-- For the results of the iterations of a loop. -/
def LWP (O : Oracle p Z) (P : Program (ZMod p)) (σ : TState p) (x : TId) (body : List (SStmt (ZMod p))) (i n : ℕ) (R : Except Fault (TState p) → Prop) : Prop :=
  (∃ r, ExecLoop O P σ x body i n r) ∧ ∀ r, ExecLoop O P σ x body i n r → R r

theorem WP.mono {σ : TState p} {ss : List (SStmt (ZMod p))} {R R' : Except Fault (TState p) → Prop} (h : WP O P σ ss R) (hr : ∀ r, R r → R' r) : WP O P σ ss R' :=
  ⟨h.1, fun r h1 => hr r (h.2 r h1)⟩

theorem FWP.mono {i : Inst (ZMod p)} {vs : List (AVal (ZMod p))} {R R' : Except Fault (AVal (ZMod p)) → Prop} (h : FWP O P i vs R) (hr : ∀ r, R r → R' r) : FWP O P i vs R' :=
  ⟨h.1, fun r h1 => hr r (h.2 r h1)⟩

theorem callsTo_iff {i : Inst (ZMod p)} {vs : List (AVal (ZMod p))} {r : Except Fault (AVal (ZMod p))} : CallsTo O P i vs r ↔ FWP O P i vs (fun r' => r' = r) := by
  constructor
  · intro h
    exact ⟨⟨r, (h r).2 rfl⟩, fun r' h' => (h r').1 h'⟩
  · rintro ⟨⟨r0, h0⟩, h⟩ r'
    constructor
    · exact h r'
    · rintro rfl
      rwa [← h _ h0]

theorem fwp {i : Inst (ZMod p)} {vs : List (AVal (ZMod p))} {R : Except Fault (AVal (ZMod p)) → Prop}
    (h : WP O P (calleeState i vs) i.body (fun r => match r with | .ok σ => R (evalT σ.env i.ret) | .error f => R (.error f))) : FWP O P i vs R := by
  obtain ⟨⟨r, hr⟩, h2⟩ := h
  constructor
  · cases r with
    | ok σ => exact ⟨_, .inl ⟨σ, hr, rfl⟩⟩
    | error f => exact ⟨_, .inr ⟨f, hr, rfl⟩⟩
  · rintro r (⟨σ, h3, rfl⟩ | ⟨f, h3, rfl⟩)
    · exact h2 _ h3
    · exact h2 _ h3

theorem wp_nil {σ : TState p} {R : Except Fault (TState p) → Prop} (h : R (.ok σ)) : WP O P σ [] R :=
  ⟨⟨_, .nil⟩, fun r hr => by cases hr; exact h⟩

/-- The first statement, by what it does. -/
theorem wp_cons {σ : TState p} {s : SStmt (ZMod p)} {ss : List (SStmt (ZMod p))} {R : Except Fault (TState p) → Prop} (h0 : ∃ r, ExecS O P σ s r)
    (h : ∀ r, ExecS O P σ s r → match r with | .ok σ' => WP O P σ' ss R | .error f => R (.error f)) : WP O P σ (s :: ss) R := by
  constructor
  · obtain ⟨r, hr⟩ := h0
    have h1 := h r hr
    cases r with
    | ok σ' =>
      obtain ⟨r', h2⟩ := h1.1
      exact ⟨r', .cons hr h2⟩
    | error f => exact ⟨_, .fault hr⟩
  · intro r hr
    cases hr with
    | fault h1 => exact h _ h1
    | cons h1 h2 => exact (h _ h1).2 _ h2

theorem wp_def {σ : TState p} {a : TAssignee (ZMod p)} {e : TExpr (ZMod p)} {ss : List (SStmt (ZMod p))} {R : Except Fault (TState p) → Prop} {v u : AVal (ZMod p)}
    (he : evalT σ.env e = .ok v) (ha : setA σ.env a v = .ok u) (h : WP O P (σ.set a.root u) ss R) : WP O P σ (.simple (.definition a e) :: ss) R := by
  refine wp_cons ⟨_, .simple (.definition he ha)⟩ fun r hr => ?_
  cases hr with
  | simple hr => cases hr with
    | definition h1 h2 =>
      rw [he] at h1; cases h1
      rw [ha] at h2; cases h2
      exact h
    | rhsFault h1 => rw [he] at h1; cases h1
    | lhsFault h1 h2 =>
      rw [he] at h1; cases h1
      rw [ha] at h2; cases h2

/-- Definition of a whole variable. -/
theorem wp_var {σ : TState p} {x : TId} {t : CType} {e : TExpr (ZMod p)} {ss : List (SStmt (ZMod p))} {R : Except Fault (TState p) → Prop} {v : AVal (ZMod p)}
    (he : evalT σ.env e = .ok v) (h : WP O P (σ.set x v) ss R) : WP O P σ (.simple (.definition (.ident x t) e) :: ss) R :=
  wp_def he rfl h

theorem wp_defFault {σ : TState p} {a : TAssignee (ZMod p)} {e : TExpr (ZMod p)} {ss : List (SStmt (ZMod p))} {R : Except Fault (TState p) → Prop} {f : Fault}
    (he : evalT σ.env e = .error f) (h : R (.error f)) : WP O P σ (.simple (.definition a e) :: ss) R := by
  refine wp_cons ⟨_, .simple (.rhsFault he)⟩ fun r hr => ?_
  cases hr with
  | simple hr => cases hr with
    | definition h1 h2 => rw [he] at h1; cases h1
    | rhsFault h1 =>
      rw [he] at h1; cases h1
      exact h
    | lhsFault h1 h2 => rw [he] at h1; cases h1

theorem wp_assert {σ : TState p} {e : TExpr (ZMod p)} {err : RuntimeError} {ss : List (SStmt (ZMod p))} {R : Except Fault (TState p) → Prop} {b : Bool}
    (he : evalT σ.env e = .ok (.bool b)) (h1 : b = true → WP O P σ ss R) (h2 : b = false → R (.error .assertionFailed)) : WP O P σ (.simple (.assertion e err) :: ss) R := by
  cases b with
  | true =>
    refine wp_cons ⟨_, .simple (.assertOk he)⟩ fun r hr => ?_
    cases hr with
    | simple hr => cases hr with
      | assertOk h3 => exact h1 rfl
      | assertFailed h3 => rw [he] at h3; cases h3
      | assertFault h3 => rw [he] at h3; cases h3
  | false =>
    refine wp_cons ⟨_, .simple (.assertFailed he)⟩ fun r hr => ?_
    cases hr with
    | simple hr => cases hr with
      | assertOk h3 => rw [he] at h3; cases h3
      | assertFailed h3 => exact h2 rfl
      | assertFault h3 => rw [he] at h3; cases h3

theorem wp_call {σ : TState p} {a : TAssignee (ZMod p)} {t : CType} {key : ℕ} {gens args : List (TExpr (ZMod p))} {ss : List (SStmt (ZMod p))} {R : Except Fault (TState p) → Prop}
    (h : CWP O P σ t key gens args (fun r => match r with
      | .ok v => ∃ u, setA σ.env a v = .ok u ∧ WP O P (σ.set a.root u) ss R
      | .error f => R (.error f))) : WP O P σ (.call a t key gens args :: ss) R := by
  obtain ⟨⟨r, hr⟩, h⟩ := h
  refine wp_cons ?_ fun r hr => ?_
  · cases r with
    | ok v =>
      obtain ⟨u, hu, -⟩ := h _ hr
      exact ⟨_, .call hr hu⟩
    | error f => exact ⟨_, .callFault hr⟩
  · cases hr with
    | call h1 h2 =>
      obtain ⟨u, hu, h3⟩ := h _ h1
      rw [h2] at hu; cases hu
      exact h3
    | callFault h1 => exact h _ h1
    | lhsFault h1 h2 =>
      obtain ⟨u, hu, h3⟩ := h _ h1
      rw [h2] at hu; cases hu

theorem uints_inj : ∀ {a b : List ℕ}, a.map (AVal.uint (F := ZMod p) .b32) = b.map (AVal.uint .b32) → a = b
  | [], [], _ => rfl
  | [], _ :: _, h => by simp at h
  | _ :: _, [], h => by simp at h
  | x :: a, y :: b, h => by
    simp only [List.map_cons, List.cons.injEq, AVal.uint.injEq, true_and] at h
    rw [h.1, uints_inj h.2]

/-- The call of a function of the program. -/
theorem cwp_here {σ : TState p} {t : CType} {key : ℕ} {gens args : List (TExpr (ZMod p))} {R : Except Fault (AVal (ZMod p)) → Prop} {i : Inst (ZMod p)} (ns : List ℕ)
    {vs : List (AVal (ZMod p))} (hg : evalL σ.env gens = .ok (ns.map (AVal.uint .b32))) (ha : evalL σ.env args = .ok vs) (hP : P key ns (args.map TExpr.ty) t = some (.here i))
    (h : FWP O P i vs R) : CWP O P σ t key gens args R := by
  obtain ⟨⟨r, hr⟩, h⟩ := h
  constructor
  · rcases hr with ⟨σ1, h1, rfl⟩ | ⟨f, h1, rfl⟩
    · exact ⟨_, .here hg ha hP h1⟩
    · exact ⟨_, .hereFault hg ha hP h1⟩
  · intro r hr
    cases hr with
    | here h1 h2 h3 h4 =>
      rw [hg] at h1; rw [ha] at h2
      cases h2
      cases uints_inj (Except.ok.inj h1)
      rw [hP] at h3; cases h3
      exact h _ (.inl ⟨_, h4, rfl⟩)
    | hereFault h1 h2 h3 h4 =>
      rw [hg] at h1; rw [ha] at h2
      cases h2
      cases uints_inj (Except.ok.inj h1)
      rw [hP] at h3; cases h3
      exact h _ (.inr ⟨_, h4, rfl⟩)
    | flat h1 h2 h3 h4 h5 =>
      rw [hg] at h1; rw [ha] at h2
      cases uints_inj (Except.ok.inj h1)
      rw [hP] at h3; cases h3
    | flatFault h1 h2 h3 h4 =>
      rw [hg] at h1; rw [ha] at h2
      cases uints_inj (Except.ok.inj h1)
      rw [hP] at h3; cases h3
    | gensFault h1 => rw [hg] at h1; cases h1
    | argsFault h1 h2 => rw [ha] at h2; cases h2

/-- The call of an embedded function. -/
theorem cwp_flat {σ : TState p} {t : CType} {key : ℕ} {gens args : List (TExpr (ZMod p))} {R : Except Fault (AVal (ZMod p)) → Prop} {f : Embed} {g : List ℕ} (ns : List ℕ)
    {vs : List (AVal (ZMod p))} (hg : evalL σ.env gens = .ok (ns.map (AVal.uint .b32))) (ha : evalL σ.env args = .ok vs) (hP : P key ns (args.map TExpr.ty) t = some (.flat f g))
    (h0 : (∃ v, HasType t v ∧ EmbedRes O f g (primsL vs) (.ok (prims v))) ∨ ∃ e, EmbedRes O f g (primsL vs) (.error e))
    (h1 : ∀ v, HasType t v → EmbedRes O f g (primsL vs) (.ok (prims v)) → R (.ok v)) (h2 : ∀ e, EmbedRes O f g (primsL vs) (.error e) → R (.error e)) :
    CWP O P σ t key gens args R := by
  constructor
  · rcases h0 with ⟨v, h3, h4⟩ | ⟨e, h3⟩
    · exact ⟨_, .flat hg ha hP h3 h4⟩
    · exact ⟨_, .flatFault hg ha hP h3⟩
  · intro r hr
    cases hr with
    | here h3 h4 h5 h6 =>
      rw [hg] at h3
      cases uints_inj (Except.ok.inj h3)
      rw [hP] at h5; cases h5
    | hereFault h3 h4 h5 h6 =>
      rw [hg] at h3
      cases uints_inj (Except.ok.inj h3)
      rw [hP] at h5; cases h5
    | flat h3 h4 h5 h6 h7 =>
      rw [hg] at h3; rw [ha] at h4
      cases h4
      cases uints_inj (Except.ok.inj h3)
      rw [hP] at h5; cases h5
      exact h1 _ h6 h7
    | flatFault h3 h4 h5 h6 =>
      rw [hg] at h3; rw [ha] at h4
      cases h4
      cases uints_inj (Except.ok.inj h3)
      rw [hP] at h5; cases h5
      exact h2 _ h6
    | gensFault h3 => rw [hg] at h3; cases h3
    | argsFault h3 h4 => rw [ha] at h4; cases h4

/-- An embedded function with one result. -/
theorem cwp_flat_eq {σ : TState p} {t : CType} {key : ℕ} {gens args : List (TExpr (ZMod p))} {R : Except Fault (AVal (ZMod p)) → Prop} {f : Embed} {g : List ℕ} (ns : List ℕ)
    {vs : List (AVal (ZMod p))} {v : AVal (ZMod p)} (hg : evalL σ.env gens = .ok (ns.map (AVal.uint .b32))) (ha : evalL σ.env args = .ok vs)
    (hP : P key ns (args.map TExpr.ty) t = some (.flat f g)) (ht : HasType t v) (h0 : ∀ r, EmbedRes O f g (primsL vs) r ↔ r = .ok (prims v)) (h1 : R (.ok v)) :
    CWP O P σ t key gens args R :=
  cwp_flat ns hg ha hP (.inl ⟨v, ht, (h0 _).2 rfl⟩) (fun v' ht' h' => by
    have h2 := (h0 _).1 h'
    rwa [prims_inj t v' v ht' ht (Except.ok.inj h2)]) (fun e h' => by cases (h0 _).1 h')

/-- Iterations with an invariant. -/
theorem lwp_inv {x : TId} {body : List (SStmt (ZMod p))} {R : Except Fault (TState p) → Prop} (Inv : ℕ → TState p → Prop) : ∀ (n i : ℕ) (σ : TState p), Inv i σ →
    (∀ j σ', i ≤ j → j < i + n → Inv j σ' → WP O P (σ'.set x (.uint .b32 j)) body (fun r => match r with | .ok σ'' => Inv (j + 1) σ'' | .error f => R (.error f))) →
    (∀ σ', Inv (i + n) σ' → R (.ok σ')) → LWP O P σ x body i n R
  | 0, i, σ, h0, _, h2 => ⟨⟨_, .done⟩, fun r hr => by cases hr; exact h2 _ h0⟩
  | n + 1, i, σ, h0, h1, h2 => by
    have hb := h1 i σ le_rfl (by omega) h0
    have hrest : ∀ σ'', Inv (i + 1) σ'' → LWP O P σ'' x body (i + 1) n R := fun σ'' h3 =>
      lwp_inv Inv n (i + 1) σ'' h3 (fun j σ' h4 h5 h6 => h1 j σ' (by omega) (by omega) h6) (fun σ' h4 => h2 σ' (by rwa [show i + (n + 1) = i + 1 + n by omega]))
    constructor
    · obtain ⟨r, hr⟩ := hb.1
      have h3 := hb.2 r hr
      cases r with
      | ok σ'' =>
        obtain ⟨r', h4⟩ := (hrest _ h3).1
        exact ⟨r', .step hr h4⟩
      | error f => exact ⟨_, .fault hr⟩
    · intro r hr
      cases hr with
      | fault h3 => exact hb.2 _ h3
      | step h3 h4 => exact (hrest _ (hb.2 _ h3)).2 _ h4

/-- A loop with an invariant. -/
theorem wp_for {σ : TState p} {x : TId} {lo hi : TExpr (ZMod p)} {body ss : List (SStmt (ZMod p))} {R : Except Fault (TState p) → Prop} (Inv : ℕ → TState p → Prop) {l h : ℕ}
    (hlo : evalT σ.env lo = .ok (.uint .b32 l)) (hhi : evalT σ.env hi = .ok (.uint .b32 h)) (hlh : l ≤ h) (h0 : Inv l σ)
    (h1 : ∀ j σ', l ≤ j → j < h → Inv j σ' → WP O P (σ'.set x (.uint .b32 j)) body (fun r => match r with | .ok σ'' => Inv (j + 1) σ'' | .error f => R (.error f)))
    (h2 : ∀ σ', Inv h σ' → WP O P σ' ss R) : WP O P σ (.for_ x lo hi body :: ss) R := by
  have hl : LWP O P σ x body l (h - l) (fun r => match r with | .ok σ' => WP O P σ' ss R | .error f => R (.error f)) := by
    refine lwp_inv Inv (h - l) l σ h0 (fun j σ' h3 h4 h5 => ?_) (fun σ' h3 => ?_)
    · exact h1 j σ' h3 (by omega) h5
    · rw [show l + (h - l) = h by omega] at h3
      exact h2 σ' h3
  obtain ⟨⟨r, hr⟩, h3⟩ := hl
  refine wp_cons ⟨r, .loop hlo hhi hr⟩ fun r' hr' => ?_
  cases hr' with
  | loop h4 h5 h6 =>
    rw [hlo] at h4; cases h4
    rw [hhi] at h5; cases h5
    exact h3 _ h6
  | loFault h4 => rw [hlo] at h4; cases h4
  | hiFault h4 h5 => rw [hhi] at h5; cases h5

/-! ### Embedded functions -/

theorem embed_toBits {w n : ℕ} {g : List ℕ} (r : Except Fault (List (ZVal p))) : EmbedRes O (.uToBits w) g [.uint w n] r ↔ r = .ok ((bitsBE w n).map .bool) := by
  constructor
  · intro h
    cases h
    rfl
  · rintro rfl
    exact .toBits g w n

theorem bools_inj {a b : List Bool} (h : a.map (ZVal.bool (p := p)) = b.map ZVal.bool) : a = b := by
  induction a generalizing b with
  | nil => cases b <;> simp_all
  | cons x a ih =>
    cases b with
    | nil => simp at h
    | cons y b =>
      simp only [List.map_cons, List.cons.injEq, ZVal.bool.injEq] at h
      rw [h.1, ih h.2]

theorem embed_fromBits {bl : List Bool} {w : ℕ} {g : List ℕ} (hw : bl.length = w) (r : Except Fault (List (ZVal p))) :
    EmbedRes O (.uFromBits w) g (bl.map .bool) r ↔ r = .ok [.uint w (natBE bl)] := by
  subst hw
  constructor
  · intro h
    generalize hb : bl.length = w at h
    generalize ha : bl.map (ZVal.bool (p := p)) = as at h
    cases h
    have := bools_inj ha
    subst this
    rfl
  · rintro rfl
    exact .fromBits g bl

theorem append_bools {a b a' b' : List Bool} (hl : a.length = a'.length) (h : a.map (ZVal.bool (p := p)) ++ b.map ZVal.bool = a'.map ZVal.bool ++ b'.map ZVal.bool) : a = a' ∧ b = b' := by
  obtain ⟨h1, h2⟩ := List.append_inj h (by simpa using hl)
  exact ⟨bools_inj h1, bools_inj h2⟩

theorem embed_bitArrayLe {al bl : List Bool} {n : ℕ} (ha : al.length = n) (hb : bl.length = n) (r : Except Fault (List (ZVal p))) :
    EmbedRes O .bitArrayLe [n] (al.map .bool ++ bl.map .bool) r ↔ r = .ok [.bool (decide (natBE al ≤ natBE bl))] := by
  subst ha
  constructor
  · intro h
    generalize hb : al.length = w at h
    generalize ha : al.map (ZVal.bool (p := p)) ++ bl.map ZVal.bool = as at h
    cases h
    obtain ⟨rfl, rfl⟩ := append_bools hb ha
    rfl
  · rintro rfl
    exact .bitArrayLe al bl hb.symm

theorem embed_unpack {n : ℕ} {x : ZMod p} (r : Except Fault (List (ZVal p))) : EmbedRes O .unpack [n] [.field x] r ↔ ∃ bl, O.unpack n x bl ∧ r = .ok (bl.map .bool) := by
  constructor
  · intro h
    cases h with
    | unpack _ _ bl h => exact ⟨bl, h, rfl⟩
  · rintro ⟨bl, h, rfl⟩
    exact .unpack n x bl h

theorem prims_boolsV (bl : List Bool) : prims (boolsV (p := p) bl) = bl.map .bool := by
  rw [boolsV, prims, primsL_bools]

theorem hasType_boolsV {bl : List Bool} {n : ℕ} (h : bl.length = n) : HasType (.array n .bool) (boolsV (p := p) bl) := by
  simp only [boolsV, HasType, List.length_map, h, true_and, List.mem_map]
  rintro v ⟨b, -, rfl⟩
  simp [HasType]

end Zok.Typed
