import Verif.Lemmas.ReducerSimple

/-
The reducer: lists of statements, loops, and function calls.
-/

set_option linter.unusedSectionVars false
set_option linter.unusedSimpArgs false

namespace Zok.Typed
open Abi
variable {p : ℕ} [Fact p.Prime] {Z : Type} {O : Oracle p Z} {P : Program (ZMod p)} {C C' : Consts (ZMod p)}

/-- What is shown for statements: `X` are the outcomes of the source. -/
def StepR (O : Oracle p Z) (P : Program (ZMod p)) (t : CType) (fr : ℕ) (st st' : RState (ZMod p)) (ss : List (TStmt (ZMod p))) (NR : Prop)
    (X : TState p → Except Fault (TState p) → Prop) : Prop :=
  Emits P t fr st st' ss ∧ ∀ K, ((∀ v, K (some v) (some v)) ∨ NR) → ∀ σ τ, SRel K fr st σ τ → RSim O (P.UnpackOnly O) (P.UnpackSome O) τ (X σ) ss (SRel K fr st')

/-! ### Lists of statements -/

theorem execSs_cons {σ : TState p} {s : SStmt (ZMod p)} {ss : List (SStmt (ZMod p))} {r : Except Fault (TState p)} :
    bindX (ExecS O P σ s) (fun σ' => ExecSs O P σ' ss) r ↔ ExecSs O P σ (s :: ss) r := by
  constructor
  · rintro (⟨e, h, rfl⟩ | ⟨σ', h, h'⟩)
    · exact .fault h
    · exact .cons h h'
  · intro h
    cases h with
    | fault h => exact .inl ⟨_, h, rfl⟩
    | cons h h' => exact .inr ⟨_, h, h'⟩

theorem execSs_append : ∀ {ss ts : List (SStmt (ZMod p))} {σ : TState p} {r : Except Fault (TState p)},
    ExecSs O P σ (ss ++ ts) r ↔ bindX (ExecSs O P σ ss) (fun σ' => ExecSs O P σ' ts) r
  | [], ts, σ, r => by
    constructor
    · intro h; exact .inr ⟨σ, .nil, h⟩
    · rintro (⟨e, h, -⟩ | ⟨σ', h, h'⟩)
      · cases h
      · cases h; exact h'
  | s :: ss, ts, σ, r => by
    constructor
    · intro h
      cases h with
      | fault h => exact .inl ⟨_, .fault h, rfl⟩
      | cons h h' =>
        rcases execSs_append.mp h' with ⟨e, h1, rfl⟩ | ⟨σ2, h1, h2⟩
        · exact .inl ⟨e, .cons h h1, rfl⟩
        · exact .inr ⟨σ2, .cons h h1, h2⟩
    · rintro (⟨e, h, rfl⟩ | ⟨σ', h, h'⟩)
      · cases h with
        | fault h => exact .fault h
        | cons h h1 => exact .cons h (execSs_append.mpr (.inl ⟨e, h1, rfl⟩))
      · cases h with
        | cons h h1 => exact .cons h (execSs_append.mpr (.inr ⟨σ', h1, h'⟩))

theorem reduceMany_ok {t : CType} {fr : ℕ} {step : RState (ZMod p) → SStmt (ZMod p) → Except RErr (RState (ZMod p) × List (TStmt (ZMod p)))}
    (hs : ∀ st s st' ss, StOk fr st → s.Wt t → step st s = .ok (st', ss) → StepR O P t fr st st' ss s.NoRet (fun σ => ExecS O P σ s)) :
    ∀ {l : List (SStmt (ZMod p))} {st st' : RState (ZMod p)} {ss : List (TStmt (ZMod p))}, StOk fr st → WtSs t l → reduceMany step st l = .ok (st', ss) →
      StepR O P t fr st st' ss (NoRetSs l) (fun σ => ExecSs O P σ l)
  | [], st, st', ss, hst, hw, h => by
    simp only [reduceMany] at h
    cases h
    refine ⟨.nil hst, fun K hK σ τ hR => .of_pure (by simp) ⟨_, .nil⟩ (fun σ' hx => ?_) (fun hx => by cases hx)⟩
    cases hx
    exact ⟨τ, .nil, hR⟩
  | s :: l, st, st', ss, hst, hw, h => by
    simp only [reduceMany] at h
    obtain ⟨⟨st1, s1⟩, h1, h⟩ := rbind_ok h
    obtain ⟨⟨st2, s2⟩, h2, h⟩ := rbind_ok h
    cases h
    obtain ⟨e1, k1⟩ := hs st s st1 s1 hst hw.1 h1
    obtain ⟨e2, k2⟩ := reduceMany_ok hs e1.ok hw.2 h2
    refine ⟨e1.append e2, fun K hK σ τ hR => ?_⟩
    exact ((k1 K (hK.imp id And.left) σ τ hR).seq fun σ1 τ1 _ _ hR1 => k2 K (hK.imp id And.right) σ1 τ1 hR1).imp (fun r => execSs_cons) fun _ _ h => h

theorem wtSs_append {F : Type} {t : CType} : ∀ {a b : List (SStmt F)}, WtSs t (a ++ b) ↔ WtSs t a ∧ WtSs t b
  | [], b => by simp [WtSs]
  | s :: a, b => by simp only [List.cons_append, WtSs, wtSs_append (a := a), and_assoc]
theorem noRetSs_append {F : Type} : ∀ {a b : List (SStmt F)}, NoRetSs (a ++ b) ↔ NoRetSs a ∧ NoRetSs b
  | [], b => by simp [NoRetSs]
  | s :: a, b => by simp only [List.cons_append, NoRetSs, noRetSs_append (a := a), and_assoc]

theorem typeOk_u32 : TypeOk (.uint .b32) := by simp [TypeOk, CType.Distinct, CType.Small, primCount]

theorem uDef_wt {t : CType} {x : TId} {n : ℕ} (h : n < 2 ^ 32) : (uDef x n : SStmt (ZMod p)).Wt t := by
  simp only [uDef, SStmt.Wt]
  exact ⟨⟨rfl, typeOk_u32, h⟩, fun y t _ => .inl (by simp [TExpr.vars])⟩

theorem uDef_exec {σ : TState p} {x : TId} {n : ℕ} {r : Except Fault (TState p)} : ExecS O P σ (uDef x n) r ↔ r = .ok (σ.set x (.uint .b32 n)) := by
  constructor
  · intro h
    cases h with
    | simple h =>
      cases h with
      | definition h1 h2 =>
        simp only [evalT] at h1
        cases h1
        simp only [setA] at h2
        cases h2
        rfl
      | rhsFault h1 => simp only [evalT] at h1; cases h1
      | lhsFault h1 h2 => simp only [setA] at h2; cases h2
  · rintro rfl
    exact .simple (.definition (a := .ident x _) (v := .uint .b32 n) (by simp only [evalT]) (by simp only [setA]))

theorem unroll_wt {t : CType} {x : TId} {body : List (SStmt (ZMod p))} (hb : WtSs t body) : ∀ {n i : ℕ}, i + n ≤ 2 ^ 32 → WtSs t (unroll x body i n)
  | 0, i, _ => trivial
  | n + 1, i, h => by
    simp only [unroll, List.cons_append, WtSs]
    exact ⟨uDef_wt (by omega), wtSs_append.mpr ⟨hb, unroll_wt hb (by omega)⟩⟩

theorem unroll_noRet {x : TId} {body : List (SStmt (ZMod p))} (hb : NoRetSs body) : ∀ {n i : ℕ}, NoRetSs (unroll x body i n)
  | 0, i => trivial
  | n + 1, i => by
    simp only [unroll, List.cons_append, NoRetSs]
    exact ⟨trivial, noRetSs_append.mpr ⟨hb, unroll_noRet hb⟩⟩

theorem unroll_exec {x : TId} {body : List (SStmt (ZMod p))} : ∀ {n i : ℕ} {σ : TState p} {r : Except Fault (TState p)},
    ExecSs O P σ (unroll x body i n) r ↔ ExecLoop O P σ x body i n r
  | 0, i, σ, r => by
    simp only [unroll]
    constructor
    · intro h; cases h; exact .done
    · intro h; cases h; exact .nil
  | n + 1, i, σ, r => by
    simp only [unroll, List.cons_append]
    rw [← execSs_cons]
    constructor
    · rintro (⟨e, h, -⟩ | ⟨σ', h, h'⟩)
      · cases uDef_exec.mp h
      · cases uDef_exec.mp h
        rcases execSs_append.mp h' with ⟨e, h1, rfl⟩ | ⟨σ2, h1, h2⟩
        · exact .fault h1
        · exact .step h1 (unroll_exec.mp h2)
    · intro h
      refine .inr ⟨_, uDef_exec.mpr rfl, execSs_append.mpr ?_⟩
      cases h with
      | fault h => exact .inl ⟨_, h, rfl⟩
      | step h h' => exact .inr ⟨_, h, unroll_exec.mpr h'⟩

/-! ### Calls of functions of the program -/

/-- The outcomes of a call whose arguments have been evaluated. -/
def CallX (O : Oracle p Z) (P : Program (ZMod p)) (t : CType) (key : ℕ) (ns : List ℕ) (ts : List CType) (vs : List (AVal (ZMod p))) (r : Except Fault (AVal (ZMod p))) : Prop :=
  match P key ns ts t with
  | none => False
  | some (.here i) => bindX (ExecSs O P (calleeState i vs) i.body) (fun σ1 r => r = evalT σ1.env i.ret) r
  | some (.flat f g) => (∃ v, HasType t v ∧ EmbedRes O f g (primsL vs) (.ok (prims v)) ∧ r = .ok v) ∨ ∃ e, EmbedRes O f g (primsL vs) (.error e) ∧ r = .error e

theorem uint_map_inj : ∀ {ns ms : List ℕ}, ns.map (AVal.uint (F := ZMod p) .b32) = ms.map (AVal.uint .b32) → ns = ms
  | [], [], _ => rfl
  | [], _ :: _, h => by simp at h
  | _ :: _, [], h => by simp at h
  | n :: ns, m :: ms, h => by
    simp only [List.map_cons, List.cons.injEq, AVal.uint.injEq] at h
    rw [h.1.2, uint_map_inj h.2]

theorem execCall_iff {σ : TState p} {t : CType} {key : ℕ} {gens args : List (TExpr (ZMod p))} {ns : List ℕ} {vs : List (AVal (ZMod p))}
    (hg : evalL σ.env gens = .ok (ns.map (AVal.uint .b32))) (ha : evalL σ.env args = .ok vs) (r : Except Fault (AVal (ZMod p))) :
    CallX O P t key ns (args.map TExpr.ty) vs r ↔ ExecCall O P σ t key gens args r := by
  constructor
  · intro h
    simp only [CallX] at h
    split at h
    · exact h.elim
    · rename_i i hi
      rcases h with ⟨e, h1, rfl⟩ | ⟨σ1, h1, rfl⟩
      · exact .hereFault hg ha hi h1
      · exact .here hg ha hi h1
    · rename_i f g hi
      rcases h with ⟨v, h1, h2, rfl⟩ | ⟨e, h1, rfl⟩
      · exact .flat hg ha hi h1 h2
      · exact .flatFault hg ha hi h1
  · intro h
    have inj : ∀ {ns' : List ℕ} {vs'}, evalL σ.env gens = .ok (ns'.map (AVal.uint .b32)) → evalL σ.env args = .ok vs' → ns' = ns ∧ vs' = vs := fun h1 h2 => by
      rw [hg] at h1
      rw [ha] at h2
      simp only [Except.ok.injEq] at h1 h2
      exact ⟨(uint_map_inj h1).symm, h2.symm⟩
    cases h with
    | here h1 h2 h3 h4 =>
      obtain ⟨rfl, rfl⟩ := inj h1 h2
      simp only [CallX, h3]
      exact .inr ⟨_, h4, rfl⟩
    | hereFault h1 h2 h3 h4 =>
      obtain ⟨rfl, rfl⟩ := inj h1 h2
      simp only [CallX, h3]
      exact .inl ⟨_, h4, rfl⟩
    | flat h1 h2 h3 h4 h5 =>
      obtain ⟨rfl, rfl⟩ := inj h1 h2
      simp only [CallX, h3]
      exact .inl ⟨_, h4, h5, rfl⟩
    | flatFault h1 h2 h3 h4 =>
      obtain ⟨rfl, rfl⟩ := inj h1 h2
      simp only [CallX, h3]
      exact .inr ⟨_, h4, rfl⟩
    | gensFault h1 => rw [hg] at h1; cases h1
    | argsFault h1 h2 => rw [ha] at h2; cases h2

/-- The definitions of the parameters. -/
theorem bindings_ok {t : CType} {fr : ℕ} : ∀ {xs : List TId} {es : List (TExpr (ZMod p))} {V V' : Vers} {ss : List (TStmt (ZMod p))}, bindings fr V xs es = .ok (V', ss) → WtL es →
    (∀ e ∈ es, TypeOk e.ty) → (∀ x ∈ varsL es, frameOf x ≠ fr) →
    (∀ s ∈ ss, s.Wt t ∧ s.ArgsTyped) ∧ (∀ s ∈ ss, s.Pure) ∧ (∀ s ∈ ss, ∀ x ∈ s.assigns, frameOf x = fr ∧ nameOf x ≠ 0) ∧
    (∀ s ∈ ss, ∀ x ∈ s.vars, x ∈ varsL es ∨ frameOf x = fr ∧ nameOf x ≠ 0) ∧
    ∀ (ρ : TEnv p) (o : Option (AVal (ZMod p))) (σ : TState p) vs, Names V fr ρ σ.env → evalL ρ es = .ok vs → ∃ ρ', ExecTs O ⟨ρ, o⟩ ss (.ok ⟨ρ', o⟩) ∧ Names V' fr ρ' (σ.setAll xs vs).env
  | [], [], V, V', ss, h, w, wt, hv => by
    simp only [bindings] at h
    cases h
    refine ⟨by simp, by simp, by simp, by simp, fun ρ o σ vs hn he => ⟨ρ, .nil, ?_⟩⟩
    simp only [evalL] at he
    cases he
    exact hn
  | [], _ :: _, V, V', ss, h, w, wt, hv => by simp only [bindings] at h; cases h
  | _ :: _, [], V, V', ss, h, w, wt, hv => by simp only [bindings] at h; cases h
  | x :: xs, e :: es, V, V', ss, h, w, wt, hv => by
    simp only [bindings] at h
    obtain ⟨⟨V1, s1⟩, h1, h⟩ := rbind_ok h
    cases h
    simp only [varsL, List.mem_append] at hv
    obtain ⟨g1, g2, g3, g4, g5⟩ := bindings_ok (t := t) h1 w.2 (fun e he => wt e (by simp [he])) fun x hx => hv x (.inr hx)
    have an := ssaA_vars V fr (.ident x e.ty : TAssignee (ZMod p)) _ (List.mem_cons_self ..)
    refine ⟨fun s hs => ?_, fun s hs => ?_, fun s hs y hy => ?_, fun s hs y hy => ?_, fun ρ o σ vs hn he => ?_⟩
    · simp only [List.mem_cons] at hs
      rcases hs with rfl | hs
      · exact ⟨⟨rfl, wt e (by simp), w.1⟩, trivial⟩
      · exact g1 s hs
    · simp only [List.mem_cons] at hs
      rcases hs with rfl | hs
      · trivial
      · exact g2 s hs
    · simp only [List.mem_cons] at hs
      rcases hs with rfl | hs
      · simp only [TStmt.assigns, TAssignee.root, List.mem_singleton] at hy
        subst hy
        exact an
      · exact g3 s hs y hy
    · simp only [List.mem_cons] at hs
      simp only [varsL, List.mem_append]
      rcases hs with rfl | hs
      · simp only [TStmt.vars, TAssignee.vars, TAssignee.root, TAssignee.indices, varsL, List.mem_append, List.mem_singleton] at hy
        rcases hy with hy | hy
        · exact .inl (.inl hy)
        · subst hy; exact .inr an
      · exact (g4 s hs y hy).imp .inr id
    · simp only [evalL] at he
      obtain ⟨v, k1, he⟩ := bind_ok he
      obtain ⟨vs', k2, he⟩ := bind_ok he
      cases he
      have hn' := ssaA_names hn (.ident x e.ty : TAssignee (ZMod p)) v
      obtain ⟨ρ', k3, k4⟩ := g5 _ o (σ.set x v) vs' hn' (by
        rw [← k2]
        refine evalL_congr _ fun y hy => ?_
        have : y ≠ (ssaAssignee V fr (.ident x e.ty : TAssignee (ZMod p))).2.root := fun hc => hv y (.inr hy) (by rw [hc]; exact an.1)
        simp only [if_neg this])
      exact ⟨ρ', .cons (.definition (a := .ident _ _) k1 (by simp only [setA])) k3, k4⟩

theorem generics_exec {ss : List (SStmt (ZMod p))} : ∀ {gs : List (TId × ℕ)} {σ : TState p} {r : Except Fault (TState p)},
    ExecSs O P σ (gs.map (fun g => uDef g.1 g.2) ++ ss) r ↔ ExecSs O P (σ.setAll (gs.map Prod.fst) (gs.map fun g => .uint .b32 g.2)) ss r
  | [], σ, r => Iff.rfl
  | g :: gs, σ, r => by
    simp only [List.map_cons, List.cons_append, TState.setAll]
    rw [← execSs_cons, ← generics_exec]
    constructor
    · rintro (⟨e, h, -⟩ | ⟨σ', h, h'⟩)
      · cases uDef_exec.mp h
      · cases uDef_exec.mp h; exact h'
    · intro h
      exact .inr ⟨_, uDef_exec.mpr rfl, h⟩

theorem generics_wt {t : CType} : ∀ {gs : List (TId × ℕ)}, (∀ g ∈ gs, g.2 < 2 ^ 32) → WtSs t (gs.map (fun g => (uDef g.1 g.2 : SStmt (ZMod p))))
  | [], _ => trivial
  | g :: gs, h => ⟨uDef_wt (h g (by simp)), generics_wt fun g hg => h g (by simp [hg])⟩
theorem generics_noRet : ∀ {gs : List (TId × ℕ)}, NoRetSs (gs.map (fun g => (uDef g.1 g.2 : SStmt (ZMod p))))
  | [] => trivial
  | _ :: _ => ⟨trivial, generics_noRet⟩

mutual
theorem wt_any {F : Type} {t t' : CType} : ∀ {s : SStmt F}, s.Wt t → s.NoRet → s.Wt t'
  | .simple (.ret _), _, hn => hn.elim
  | .simple (.definition _ _), h, _ => h
  | .simple (.assertion _ _), h, _ => h
  | .simple (.log _), h, _ => h
  | .simple (.embed _ _ _ _), h, _ => h
  | .call _ _ _ _ _, h, _ => h
  | .for_ _ _ _ _, h, hn => ⟨h.1, h.2.1, h.2.2.1, h.2.2.2.1, wts_any h.2.2.2.2 hn⟩
theorem wts_any {F : Type} {t t' : CType} : ∀ {s : List (SStmt F)}, WtSs t s → NoRetSs s → WtSs t' s
  | [], _, _ => trivial
  | _ :: _, h, hn => ⟨wt_any h.1 hn.1, wts_any h.2 hn.2⟩
end

/-- What is known about the result of inlining. -/
structure CallOk (O : Oracle p Z) (P : Program (ZMod p)) (C : Consts (ZMod p)) (L : ℕ) (t : CType) (c : Inlined (ZMod p)) (args : List (TExpr (ZMod p)))
    (X : List (AVal (ZMod p)) → Except Fault (AVal (ZMod p)) → Prop) : Prop where
  emits : ∀ (V V' : Vers) (fr : ℕ) (t' : CType), fr ≤ L → Emits P t' fr ⟨V, C, L⟩ ⟨V', c.consts, c.latest⟩ c.stmts
  low : ∀ x, frameOf x ≤ L → c.consts x = C x
  assigns : ∀ s ∈ c.stmts, ∀ x ∈ s.assigns, L < frameOf x
  value : c.value.ty = t ∧ c.value.Wt ∧ ∀ x ∈ c.value.vars, L < frameOf x ∧ Named c.latest x
  sim : ∀ (env : TEnv p) (τ : TState p) vs, EnvRel C env τ.env → (∀ x, L < frameOf x → τ.env x = none) → evalL env args = .ok vs →
    RSim O (P.UnpackOnly O) (P.UnpackSome O) τ (X vs) c.stmts (fun v τ' => ∃ env', EnvRel c.consts env' τ'.env ∧ evalT env' c.value = .ok v ∧
      (∀ x, frameOf x ≤ L → env' x = env x) ∧ (∀ x, c.latest < frameOf x → τ'.env x = none) ∧ τ'.out = τ.out)

theorem here_ok {run : ℕ → RState (ZMod p) → List (SStmt (ZMod p)) → Except RErr (RState (ZMod p) × List (TStmt (ZMod p)))} {k L : ℕ} {t : CType} {i : Inst (ZMod p)}
    {args : List (TExpr (ZMod p))} {c : Inlined (ZMod p)}
    (hrun : ∀ t fr st l st' ss, StOk fr st → WtSs t l → run fr st l = .ok (st', ss) → StepR O P t fr st st' ss (NoRetSs l) (fun σ => ExecSs O P σ l))
    (hC : GoodC C) (hd : ∀ x, L < frameOf x → C x = none) (wa : WtL args) (va : ∀ x ∈ varsL args, Named L x)
    (hi : (Callee.here i).Wt (args.map TExpr.ty) t)
    (h : (do
      let b ← bindings (L + 1) (fun _ => none) i.params args
      let c ← propMany C b.2
      let r ← run (L + 1) ⟨b.1, c.1, L + 1⟩ (i.generics.map (fun g => uDef g.1 g.2) ++ i.body)
      let v ← reduceExpr r.1.vers (L + 1) r.1.consts k (i.ret.ren (ssaName r.1.vers (L + 1)))
      .ok ⟨r.1.consts.clear r.1.latest, r.1.latest, c.2 ++ r.2, v⟩ : Except RErr (Inlined (ZMod p))) = .ok c) :
    CallOk O P C L t c args (fun vs r => bindX (ExecSs O P (calleeState i vs) i.body) (fun σ1 r => r = evalT σ1.env i.ret) r) := by
  obtain ⟨wt, wg, wb, nr, wr, tr⟩ := hi
  obtain ⟨⟨V1, bs⟩, h1, h⟩ := rbind_ok h
  obtain ⟨⟨C1, s1⟩, h2, h⟩ := rbind_ok h
  obtain ⟨⟨st2, s2⟩, h3, h⟩ := rbind_ok h
  obtain ⟨v, h4, h⟩ := rbind_ok h
  cases h
  have bo := fun t' => bindings_ok (O := O) (t := t') h1 wa (fun e he => wt _ (List.mem_map_of_mem he)) fun x hx hc => by
    have := (va x hx).1
    omega
  have m1 := fun t' => propMany_mok hC (bo t').1 h2
  have b2 := (bo t).2.1
  have b3 := (bo t).2.2.1
  have b4 := (bo t).2.2.2.1
  have b5 := (bo t).2.2.2.2
  have pu1 := (m1 t).pure b2
  have as1 : ∀ s ∈ s1, ∀ x ∈ s.assigns, frameOf x = L + 1 ∧ nameOf x ≠ 0 := fun s hs x hx => by
    obtain ⟨s0, k1, k2⟩ := (m1 t).shape s hs
    exact b3 s0 k1 x (k2.assigns x hx)
  have low1 : ∀ x, frameOf x ≠ L + 1 → C1 x = C x := fun x hx => (m1 t).consts x fun s hs hc => hx (b3 s hs x hc).1
  have so1 : StOk (L + 1) ⟨V1, C1, L + 1⟩ := ⟨(m1 t).good, le_refl _, fun x hx => by
    show C1 x = none
    change L + 1 < frameOf x at hx
    rw [low1 x (by omega)]
    exact hd x (by omega)⟩
  have run2 := fun t' => hrun t' _ _ _ _ _ so1 (wtSs_append.mpr ⟨generics_wt wg, wts_any (t' := t') wb nr⟩) h3
  obtain ⟨e2, k2⟩ := run2 t
  have le2 : L + 1 ≤ st2.latest := e2.le
  have low2 : ∀ x, frameOf x ≤ L → st2.consts x = C x := fun x hx => by
    rw [e2.consts x (by omega) (by show frameOf x ≤ L + 1; omega)]
    exact low1 x (by omega)
  have as2 : ∀ s ∈ s2, ∀ x ∈ s.assigns, L < frameOf x ∧ frameOf x ≤ st2.latest ∧ (nameOf x = 0 → L + 1 < frameOf x) := fun s hs x hx => by
    rcases e2.assigns s hs x hx with h | h
    · exact ⟨by omega, by omega, fun h0 => absurd h0 h.2⟩
    · change L + 1 < frameOf x ∧ _ at h
      exact ⟨by omega, h.2, fun _ => h.1⟩
  have hclear : ∀ x, frameOf x ≠ st2.latest → st2.consts.clear st2.latest x = st2.consts x := fun x hx => by simp only [Consts.clear, if_neg hx]
  obtain ⟨tv, ve⟩ := reduceExpr_ok e2.ok.good ((wt_renT _ _).mpr wr) (.inr fun x hx => by
    rw [vars_renT] at hx
    obtain ⟨y, -, rfl⟩ := List.mem_map.mp hx
    exact cur_ssa _ _ y) h4
  refine ⟨fun V V' fr t' hfr => ?_, fun x hx => ?_, fun s hs x hx => ?_, ?_, fun env τ vs hE hn hv => ?_⟩
  · refine ⟨⟨?_, ?_, fun x hx => ?_⟩, ?_, fun s hs => ?_, fun s hs x hx => .inr ?_, fun x hx hl => ?_, fun s hs x hx => ?_, fun seen hseen => ?_, fun s hs => ?_⟩
    · intro x c hx
      simp only [Consts.clear] at hx
      split at hx
      · cases hx
      · exact e2.ok.good x c hx
    · show fr ≤ st2.latest; omega
    · change st2.latest < frameOf x at hx
      show st2.consts.clear st2.latest x = none
      rw [hclear x (by omega)]
      exact e2.ok.dom x hx
    · show L ≤ st2.latest; omega
    · rcases List.mem_append.mp hs with hs | hs
      · exact (m1 t').wt s hs
      · exact (run2 t').1.wt s hs
    · show L < frameOf x ∧ frameOf x ≤ st2.latest
      rcases List.mem_append.mp hs with hs | hs
      · have := (as1 s hs x hx).1
        omega
      · have := as2 s hs x hx
        omega
    · change frameOf x ≤ L at hl
      show st2.consts.clear st2.latest x = C x
      rw [hclear x (by omega), low2 x hl]
    · rcases List.mem_append.mp hs with hs | hs
      · obtain ⟨s0, g1, g2⟩ := (m1 t).shape s hs
        rcases b4 s0 g1 x (g2.vars x hx) with g | g
        · exact (va x g).mono (by show L ≤ st2.latest; omega)
        · exact ⟨by show frameOf x ≤ st2.latest; omega, fun h => absurd h g.2⟩
      · exact e2.vars s hs x hx
    · refine freshCalls_append (freshCalls_pure pu1) (e2.fresh _ fun x hx h0 => ?_)
      show frameOf x ≤ L + 1
      rcases List.mem_append.mp hx with hx | hx
      · obtain ⟨s, hs, hx⟩ := List.mem_flatMap.mp hx
        exact absurd h0 (as1 s hs x hx).2
      · exact (hseen x hx h0).trans (Nat.le_succ L)
    · rcases List.mem_append.mp hs with hs | hs
      · rintro a f g args rfl
        exact (pu1 _ hs).elim
      · exact e2.call s hs
  · show st2.consts.clear st2.latest x = C x
    rw [hclear x (by omega), low2 x hx]
  · rcases List.mem_append.mp hs with hs | hs
    · have := (as1 s hs x hx).1
      omega
    · exact (as2 s hs x hx).1
  · refine ⟨by rw [tv.1, ty_ren, tr], tv.2.1, fun x hx => ?_⟩
    have := tv.2.2 x hx
    rw [vars_renT] at this
    obtain ⟨y, -, rfl⟩ := List.mem_map.mp this
    exact ⟨by rw [frameOf_ssa]; omega, named_ssa le2 y⟩
  · -- the statements
    have hN0 : Names (fun _ => none) (L + 1) env (⟨fun _ => none, none⟩ : TState p).env := fun x => by
      have hf : L < frameOf (ssaName (fun _ => none) (L + 1) x) := by rw [frameOf_ssa]; omega
      rw [← hE.same _ (hd _ hf)]
      exact hn _ hf
    obtain ⟨ρ1, x1, x2⟩ := b5 env τ.out ⟨fun _ => none, none⟩ vs hN0 hv
    obtain ⟨τ1, y1, y2⟩ := propMany_fwd hC (bo t).1 b2 h2 ⟨env, τ.out⟩ τ _ ⟨rfl, hE⟩ x1
    have sim1 : RSim O (P.UnpackOnly O) (P.UnpackSome O) τ (fun r => r = .ok ((⟨fun _ => none, none⟩ : TState p).setAll i.params vs)) s1 (fun σ τ' => σ =
        (⟨fun _ => none, none⟩ : TState p).setAll i.params vs ∧ SRel (fun _ b => b = τ.out) (L + 1) ⟨V1, C1, L + 1⟩ σ τ') := by
      refine .of_pure pu1 ⟨_, rfl⟩ (fun a ha => ?_) (fun ha => by cases ha)
      cases ha
      refine ⟨τ1, y1, rfl, ⟨ρ1, y2.env, x2⟩, fun x hx => ?_, y2.out⟩
      change L + 1 < frameOf x at hx
      rw [y1.frame fun s hs hc => by have := (as1 s hs x hc).1; omega]
      exact hn x (by omega)
    have sim := sim1.seq (Y := fun σ => bindX (ExecSs O P σ (i.generics.map (fun g => uDef g.1 g.2) ++ i.body)) (fun σ1 r => r = evalT σ1.env i.ret)) (ts := s2 ++ [])
      (R := fun v' τ' => ∃ env', EnvRel (st2.consts.clear st2.latest) env' τ'.env ∧ evalT env' v = .ok v' ∧
      (∀ x, frameOf x ≤ L → env' x = env x) ∧ (∀ x, st2.latest < frameOf x → τ'.env x = none) ∧ τ'.out = τ.out) fun σ0 τ0 hσ hx0 hR0 => by
        refine (k2 (fun _ b => b = τ.out) (.inr (noRetSs_append.mpr ⟨generics_noRet, nr⟩)) σ0 τ0 hR0.2).seq fun σ1 τc _ hxc hRc => ?_
        obtain ⟨⟨ρc, hEc, hNc⟩, hnc, hoc⟩ := hRc
        refine .of_pure (by simp) ⟨_, rfl⟩ (fun v' hv' => ⟨τc, .nil, ?_⟩) (fun hv' => absurd hv'.symm (na_evalT _ _))
        have lowτ : ∀ x, frameOf x ≤ L → τc.env x = τ.env x := fun x hx => by
          rw [hxc.frame fun s hs hc => by have := as2 s hs x hc; omega, hx0.frame fun s hs hc => by have := (as1 s hs x hc).1; omega]
        have lowρ : ∀ x, frameOf x ≤ L → C x = none → env x = τc.env x := fun x hx hc => by rw [lowτ x hx, hE.same x hc]
        refine ⟨fun y => if frameOf y = st2.latest then τc.env y else if frameOf y ≤ L then env y else ρc y, ⟨fun y hy => ?_, fun y c hy => ?_⟩, ve ρc _ _ ⟨fun y hy => ?_, hEc.const⟩ ?_,
          fun x hx => ?_, hnc, hoc⟩
        · split
          · rfl
          · rename_i h1
            rw [hclear y h1] at hy
            split
            · rename_i h2
              rw [low2 y h2] at hy
              exact (lowρ y h2 hy).symm
            · exact hEc.same y hy
        · have h1 : frameOf y ≠ st2.latest := fun hc => by simp only [Consts.clear, if_pos hc] at hy; cases hy
          rw [hclear y h1] at hy
          simp only [if_neg h1]
          split
          · rename_i h2
            rw [low2 y h2] at hy
            exact hE.const y c hy
          · exact hEc.const y c hy
        · split
          · exact hEc.same y hy
          · split
            · rename_i h2
              have hy' := hy
              rw [low2 y h2] at hy'
              rw [lowρ y h2 hy', hEc.same y hy]
            · rfl
        · rw [eval_renT, show (fun x => ρc (ssaName st2.vers (L + 1) x)) = σ1.env from funext hNc]
          exact hv'.symm
        · have hne : frameOf x ≠ st2.latest := by omega
          simp only [if_neg hne, if_pos hx]
    rw [List.append_nil] at sim
    refine sim.imp (fun r => ?_) fun _ _ h => h
    have ce : ∀ r, ExecSs O P ((⟨fun _ => none, none⟩ : TState p).setAll i.params vs) (i.generics.map (fun g => uDef g.1 g.2) ++ i.body) r ↔ ExecSs O P (calleeState i vs) i.body r := fun r => generics_exec
    simp only [bindX, ce]
    constructor
    · rintro (⟨e, h, -⟩ | ⟨a, h, h'⟩)
      · cases h
      · cases h
        rcases h' with ⟨e, h1, h2⟩ | ⟨a, h1, h2⟩
        · exact .inl ⟨e, (ce _).mp h1, h2⟩
        · exact .inr ⟨a, (ce _).mp h1, h2⟩
    · intro h
      refine .inr ⟨_, rfl, ?_⟩
      rcases h with ⟨e, h1, h2⟩ | ⟨a, h1, h2⟩
      · exact .inl ⟨e, (ce _).mpr h1, h2⟩
      · exact .inr ⟨a, (ce _).mpr h1, h2⟩

end Zok.Typed
