import Verif.Lemmas.Semantics

/-
The type checker makes readings of the source, which are well typed up to the comparisons it leaves out.
-/

set_option linter.unusedVariables false
set_option linter.unusedSimpArgs false

namespace Zok.Sem
open Typed Abi
variable {p : ℕ} {D : Decls} {G : Scope}

theorem rawS_structs : ∀ {ks : List (KSpread (ZMod p))} {ss : List SSpread}, RawS D G ks ss → ∀ t ∈ ks.map KSpread.ty, StructsOk t
  | _, _, .nil, t, ht => by simp at ht
  | _, _, .expr h h', t, ht => by
    rcases List.mem_cons.1 ht with rfl | ht
    · exact h.structs
    · exact rawS_structs h' t ht
  | _, _, .spread h hk h', t, ht => by
    rcases List.mem_cons.1 ht with rfl | ht
    · have := h.structs
      rw [hk, StructsOk] at this
      simpa [KSpread.ty, hk] using this
    · exact rawS_structs h' t ht

/-- The results of a check of a list. -/
def OkkL (D : Decls) (G : Scope) (ks : List (KExpr (ZMod p))) (ss : List SExpr) : Prop := List.Forall₂ (Okk D G) ks ss

theorem okkL_raw : ∀ {ks : List (KExpr (ZMod p))} {ss : List SExpr}, OkkL D G ks ss → RawL D G ks ss
  | _, _, .nil => .nil
  | _, _, .cons h h' => .cons h.1 (okkL_raw h')
theorem okkL_fin : ∀ {ks : List (KExpr (ZMod p))} {ss : List SExpr}, OkkL D G ks ss → (primCountL (ks.map KExpr.ty)).isSome → FinL D G (ks.map KExpr.ty) ks ss
  | _, _, .nil, _ => finL_nil
  | _, _, .cons h h', hn => by
    rw [List.map_cons, noIntL_cons] at hn
    exact finL_cons (h.2 hn.1) (Alike.refl _) (okkL_fin h' hn.2)

theorem okkL_lookup : ∀ {names : List Str} {ks : List (KExpr (ZMod p))} {ss : List SExpr} {m : Str} {k : KExpr (ZMod p)}, OkkL D G ks ss → (names.zip ks).lookup m = some k →
    ∃ s, (names.zip ss).lookup m = some s ∧ Okk D G k s
  | [], ks, ss, m, k, h, hl => by simp at hl
  | n :: names, _, _, m, k, .nil, hl => by simp at hl
  | n :: names, _, _, m, k, .cons h h', hl => by
    rw [List.zip_cons_cons, List.lookup_cons] at hl
    rw [List.zip_cons_cons, List.lookup_cons]
    split at hl
    · cases hl; exact ⟨_, rfl, h⟩
    · exact okkL_lookup h' hl

theorem pick_spec {names : List Str} {ks : List (KExpr (ZMod p))} {ss : List SExpr} (hL : OkkL D G ks ss) : ∀ {ms : List (Str × CType)} {ks' : List (KExpr (ZMod p))},
    (primCountM ms).isSome → pickMembers names ks ms = .ok ks' → RawM D G names ss ms ks' ∧ FinM D G names ss ms ks'
  | [], ks', _, h => by simp only [pickMembers] at h; cases h; exact ⟨.nil, finM_nil⟩
  | (m, t) :: ms, ks', hn, h => by
    rw [noIntM_cons] at hn
    simp only [pickMembers] at h
    split at h
    · cases h
    · rename_i k hk
      have hbo := bind_ok h
      clear h
      obtain ⟨k', hk', h⟩ := hbo
      have hbo := bind_ok h
      clear h
      obtain ⟨es, hes, h⟩ := hbo
      cases h
      obtain ⟨s, hs, ho⟩ := okkL_lookup hL hk
      obtain ⟨a1, a2⟩ := align_spec ho.1 (NoInt.structs hn.1) (orReject_ok hk')
      obtain ⟨b1, b2⟩ := pick_spec hL hn.2 hes
      obtain ⟨c1, c2, _⟩ := a2 hn.1
      exact ⟨.cons hs a1 c2 b1, finM_cons hs c1 c2 b2⟩

theorem okk_notInt {k : KExpr (ZMod p)} {s : SExpr} {t : CType} (hi : k.inline = false) (hk : k.ty = t) (hn : NoInt t) (h : Fin D G k s) : Okk D G k s :=
  okk_fin h hi (hk ▸ hn)

theorem noInt_get : ∀ {ts : List CType} {i : ℕ} {t : CType}, (primCountL ts).isSome → ts[i]? = some t → NoInt t
  | [], i, t, _, h => by simp at h
  | u :: ts, 0, t, hs, h => by
    rw [noIntL_cons] at hs
    simp only [List.getElem?_cons_zero, Option.some.injEq] at h
    exact h ▸ hs.1
  | u :: ts, i + 1, t, hs, h => by
    rw [noIntL_cons] at hs
    exact noInt_get hs.2 (by simpa using h)

mutual
theorem check_spec (hD : ∀ name ms, D name = some ms → TypeOk (.struct ms)) (hG : ∀ x t, G x = some t → TypeOk t) : ∀ (s : SExpr) {k : KExpr (ZMod p)},
    check D G s = .ok k → Okk D G k s
  | .int n, k, h => by
    simp only [check] at h
    cases h
    exact ⟨.inum, fun h => absurd h not_noInt_int⟩
  | .fieldC n, k, h => by
    simp only [check] at h
    split at h <;> cases h
    exact okk_fin (fin_fval (.fieldC (by assumption))) rfl rfl
  | .uintC w n, k, h => by
    simp only [check] at h
    split at h <;> cases h
    exact okk_fin (fin_uval (.uintC (by assumption)) (by assumption)) rfl rfl
  | .boolC b, k, h => by
    simp only [check] at h
    cases h
    exact okk_fin (.inr ⟨.bval b, by simp [toT], rfl, .boolC, fun _ => ⟨trivial, typeOk_bool'⟩⟩) rfl rfl
  | .ident x, k, h => by
    simp only [check] at h
    split at h <;> cases h
    rename_i t ht
    have hok := hG x t ht
    exact okk_fin (.inr ⟨.ident x t, by simp [toT], rfl, .ident ht, fun _ => ⟨hok, hok⟩⟩) rfl hok.2
  | .un op e, k, h => by
    simp only [check] at h
    have hbo := bind_ok h
    clear h
    obtain ⟨k1, h1, h⟩ := hbo
    have ih := check_spec hD hG e h1
    split at h
    · rename_i hk; cases h
      exact ⟨.un hk ih.1, fun h => absurd h not_noInt_int⟩
    · rename_i w hk; cases h
      exact okk_fin (fin_un (ih.2 (hk ▸ noInt_uint)) hk (.inr (.inl ⟨w, rfl⟩))) rfl rfl
    · rename_i hk; cases h
      exact okk_fin (fin_un (ih.2 (hk ▸ noInt_field)) hk (.inl ⟨rfl, by simp⟩)) rfl rfl
    · rename_i hk; cases h
      exact okk_fin (fin_un (ih.2 (hk ▸ noInt_field)) hk (.inl ⟨rfl, by simp⟩)) rfl rfl
    · rename_i hk; cases h
      exact okk_fin (fin_un (ih.2 (hk ▸ noInt_bool)) hk (.inr (.inr ⟨rfl, rfl⟩))) rfl rfl
    · cases h
  | .bin op l r, k, h => by
    simp only [check] at h
    have hbo := bind_ok h
    clear h
    obtain ⟨k1, h1, h⟩ := hbo
    have hbo := bind_ok h
    clear h
    obtain ⟨k2, h2, h⟩ := hbo
    have hbo := bind_ok h
    clear h
    obtain ⟨⟨a, b⟩, h3, h⟩ := hbo
    have hbo := bind_ok h
    clear h
    obtain ⟨t, h4, h⟩ := hbo
    cases h
    have hp := alignPair_spec (check_spec hD hG l h1) (check_spec hD hG r h2) h3
    unfold binTy at h4
    rcases hp with ⟨ha, hb, q1, q2⟩ | ⟨q1, q2, n1, n2, _⟩
    · simp only [ha, hb] at h4
      split at h4 <;> cases h4
      exact ⟨.bin (by assumption) q1 q2, fun h => absurd h not_noInt_int⟩
    · split at h4
      · rename_i ha _; exact absurd (ha ▸ n1) not_noInt_int
      · rename_i ha hb
        split at h4 <;> cases h4
        exact okk_fin (fin_bin q1 q2 ha hb (.inl ⟨rfl, by assumption⟩)) rfl rfl
      · rename_i w w' ha hb
        split at h4 <;> cases h4
        rename_i hw
        subst hw
        exact okk_fin (fin_bin q1 q2 ha hb (.inr ⟨_, rfl⟩)) rfl rfl
      · cases h4
  | .sh op l r, k, h => by
    cases op with
    | pow =>
      simp only [check] at h
      have hbo := bind_ok h
      clear h
      obtain ⟨k1, h1, h⟩ := hbo
      have hbo := bind_ok h
      clear h
      obtain ⟨k2, h2, h⟩ := hbo
      have hbo := bind_ok h
      clear h
      obtain ⟨a, h3, h⟩ := hbo
      have hbo := bind_ok h
      clear h
      obtain ⟨b, h4, h⟩ := hbo
      cases h
      obtain ⟨a1, a2, _⟩ := scalarTo_spec (check_spec hD hG l h1) h3
      obtain ⟨b1, b2, _⟩ := scalarTo_spec (check_spec hD hG r h2) h4
      exact okk_fin (fin_sh a1 b1 a2 b2 (.inl rfl)) rfl rfl
    | shl =>
      simp only [check] at h
      have hbo := bind_ok h
      clear h
      obtain ⟨k1, h1, h⟩ := hbo
      have hbo := bind_ok h
      clear h
      obtain ⟨k2, h2, h⟩ := hbo
      have hbo := bind_ok h
      clear h
      obtain ⟨b, h4, h⟩ := hbo
      have ih := check_spec hD hG l h1
      obtain ⟨b1, b2, _⟩ := scalarTo_spec (check_spec hD hG r h2) h4
      split at h <;> cases h
      · exact ⟨.sh ih.1 b1 b2, fun h => absurd h not_noInt_int⟩
      · rename_i w hk
        exact okk_fin (fin_sh (ih.2 (hk ▸ noInt_uint)) b1 hk b2 (.inr ⟨⟨w, rfl⟩, by simp⟩)) rfl rfl
      · rename_i hk
        exact okk_fin (fin_sh (ih.2 (hk ▸ noInt_field)) b1 hk b2 (.inl rfl)) rfl rfl
    | shr =>
      simp only [check] at h
      have hbo := bind_ok h
      clear h
      obtain ⟨k1, h1, h⟩ := hbo
      have hbo := bind_ok h
      clear h
      obtain ⟨k2, h2, h⟩ := hbo
      have hbo := bind_ok h
      clear h
      obtain ⟨b, h4, h⟩ := hbo
      have ih := check_spec hD hG l h1
      obtain ⟨b1, b2, _⟩ := scalarTo_spec (check_spec hD hG r h2) h4
      split at h <;> cases h
      · exact ⟨.sh ih.1 b1 b2, fun h => absurd h not_noInt_int⟩
      · rename_i w hk
        exact okk_fin (fin_sh (ih.2 (hk ▸ noInt_uint)) b1 hk b2 (.inr ⟨⟨w, rfl⟩, by simp⟩)) rfl rfl
      · rename_i hk
        exact okk_fin (fin_sh (ih.2 (hk ▸ noInt_field)) b1 hk b2 (.inl rfl)) rfl rfl
  | .logic op l r, k, h => by
    cases op with
    | and =>
      simp only [check] at h
      have hbo := bind_ok h
      clear h
      obtain ⟨k1, h1, h⟩ := hbo
      have hbo := bind_ok h
      clear h
      obtain ⟨k2, h2, h⟩ := hbo
      have hbo := bind_ok h
      clear h
      obtain ⟨⟨a, b⟩, h3, h⟩ := hbo
      have hp := alignPair_spec (check_spec hD hG l h1) (check_spec hD hG r h2) h3
      dsimp only at h
      split at h
      · rename_i ha hb
        cases h
        rcases hp with ⟨_, _, q1, q2⟩ | ⟨_, _, n1, _⟩
        · exact ⟨.band q1 q2, fun h => absurd h not_noInt_int⟩
        · exact absurd (ha ▸ n1) not_noInt_int
      · rename_i ha hb
        cases h
        rcases hp with ⟨ha', _⟩ | ⟨q1, q2, _⟩
        · rw [ha] at ha'; cases ha'
        · exact okk_fin (fin_logic q1 q2 ha hb) rfl rfl
      · cases h
    | or =>
      simp only [check] at h
      have hbo := bind_ok h
      clear h
      obtain ⟨k1, h1, h⟩ := hbo
      have hbo := bind_ok h
      clear h
      obtain ⟨k2, h2, h⟩ := hbo
      split at h
      · rename_i ha hb
        cases h
        exact okk_fin (fin_logic ((check_spec hD hG l h1).2 (ha ▸ noInt_bool)) ((check_spec hD hG r h2).2 (hb ▸ noInt_bool)) ha hb) rfl rfl
      · cases h
  | .rel op l r, k, h => by
    simp only [check] at h
    have hbo := bind_ok h
    clear h
    obtain ⟨k1, h1, h⟩ := hbo
    have hbo := bind_ok h
    clear h
    obtain ⟨k2, h2, h⟩ := hbo
    have hbo := bind_ok h
    clear h
    obtain ⟨⟨a, b⟩, h3, h⟩ := hbo
    have hp := alignPair_spec (check_spec hD hG l h1) (check_spec hD hG r h2) h3
    dsimp only at h
    split at h
    · rename_i ht
      rcases hp with ⟨ha, hb, _⟩ | ⟨q1, q2, _⟩
      · simp only [ha, hb, relTy] at ht; cases ht
      · have := fin_rel (op := op) q1 q2 ht
        cases op <;> (cases h; exact okk_fin this rfl rfl)
    · cases h
  | .eq l r, k, h => by
    simp only [check] at h
    have hbo := bind_ok h
    clear h
    obtain ⟨k1, h1, h⟩ := hbo
    have hbo := bind_ok h
    clear h
    obtain ⟨k2, h2, h⟩ := hbo
    have hbo := bind_ok h
    clear h
    obtain ⟨⟨a, b⟩, h3, h⟩ := hbo
    have hp := alignPair_spec (check_spec hD hG l h1) (check_spec hD hG r h2) h3
    dsimp only at h
    split at h
    · rename_i ht
      cases h
      rcases hp with ⟨ha, hb, _⟩ | ⟨q1, q2, _, _, hal⟩
      · simp only [ha, hb, eqTys] at ht; cases ht
      · refine okk_fin (fin_eq q1 q2 ?_) rfl rfl
        rcases hal with hal | ⟨u1, u2⟩
        · exact hal
        · cases hta : a.ty <;> rw [hta] at u1 ht <;> simp only [CType.IsUint] at u1
          cases htb : b.ty <;> rw [htb] at u2 ht <;> simp only [CType.IsUint] at u2
          simp only [eqTys, decide_eq_true_eq] at ht
          rw [ht]; exact Alike.refl _
    · cases h
  | .cond c l r, k, h => by
    simp only [check] at h
    have hbo := bind_ok h
    clear h
    obtain ⟨k0, h0, h⟩ := hbo
    have hbo := bind_ok h
    clear h
    obtain ⟨k1, h1, h⟩ := hbo
    have hbo := bind_ok h
    clear h
    obtain ⟨k2, h2, h⟩ := hbo
    have hbo := bind_ok h
    clear h
    obtain ⟨⟨a, b⟩, h3, h⟩ := hbo
    have hp := alignPair_spec (check_spec hD hG l h1) (check_spec hD hG r h2) h3
    have ic := check_spec hD hG c h0
    dsimp only at h
    split at h
    · rename_i hb
      have hc := ic.2 (hb ▸ noInt_bool)
      split at h
      · cases h
        rcases hp with ⟨ha', hb', q1, q2⟩ | ⟨q1, q2, n1, n2, hal⟩
        · rw [ha']
          exact ⟨.cond hc hb q1 q2, fun h => absurd h not_noInt_int⟩
        · exact okk_fin (fin_cond hc q1 q2 hb rfl hal) rfl n1
      · cases h
    · cases h
  | .select a i, k, h => by
    simp only [check] at h
    have hbo := bind_ok h
    clear h
    obtain ⟨k1, h1, h⟩ := hbo
    have hbo := bind_ok h
    clear h
    obtain ⟨k2, h2, h⟩ := hbo
    have hbo := bind_ok h
    clear h
    obtain ⟨j, h3, h⟩ := hbo
    have ia := check_spec hD hG a h1
    obtain ⟨b1, b2, _⟩ := scalarTo_spec (check_spec hD hG i h2) h3
    split at h
    · cases h
    · rename_i n t hne hk
      cases h
      have hf : NoInt t → Fin D G (.select t k1 j) (.select a i) := fun hn => fin_select (ia.2 (hk ▸ noInt_array.2 hn)) b1 hk b2
      refine ⟨.other rfl (by intro h; simp only [KExpr.ty] at h; subst h; simp_all) ?_ ?_ hf, hf⟩
      rotate_left
      · intro e he
        simp only [toT] at he
        obtain ⟨a', ha', he⟩ := Option.bind_eq_some_iff.1 he
        obtain ⟨i', hi', he⟩ := Option.bind_eq_some_iff.1 he
        cases he
        exact ⟨rfl, .select (raw_rd ia.1 a' ha').2 (b1.rd i' hi').2⟩
      have := ia.1.structs
      rw [hk, StructsOk] at this
      exact this
    · cases h
  | .element e i, k, h => by
    simp only [check] at h
    have hbo := bind_ok h
    clear h
    obtain ⟨k1, h1, h⟩ := hbo
    have ia := check_spec hD hG e h1
    split at h
    · rename_i ts hk
      split at h
      · cases h
      · rename_i t hne ht
        cases h
        have hs := ia.1.structs
        rw [hk, StructsOk] at hs
        have hf : Fin D G (.element t k1 i) (.element e i) := fin_element' ia hk ht
        exact ⟨.other rfl (by intro h; simp only [KExpr.ty] at h; subst h; simp_all) (structsOkL_get hs ht) hf.rd (fun _ => hf), fun _ => hf⟩
      · cases h
    · cases h
  | .member e m, k, h => by
    simp only [check] at h
    have hbo := bind_ok h
    clear h
    obtain ⟨k1, h1, h⟩ := hbo
    have ia := check_spec hD hG e h1
    split at h
    · rename_i ms hk
      split at h
      · cases h
      · rename_i t hne ht
        cases h
        have hs := ia.1.structs
        rw [hk, StructsOk] at hs
        exact okk_fin (fin_member (ia.2 (hk ▸ hs)) hk ht) rfl (by
          simp only [NoInt, primCount] at hs
          exact noIntM_mem hs (lookup_mem ht))
      · cases h
    · cases h
  | .array es, k, h => by
    simp only [check] at h
    have hbo := bind_ok h
    clear h
    obtain ⟨ks, h1, h⟩ := hbo
    have hS := checkS_spec hD hG es h1
    split at h
    · cases h
    · rename_i k0 ks0
      split at h
      · cases h
        exact ⟨.array hS (by simp [StructsOk]) (by simp) (fun h => absurd h not_noInt_int), fun h => absurd (noInt_array.1 h) not_noInt_int⟩
      · rename_i t ht hti
        have hbo := bind_ok h
        clear h
        obtain ⟨es', h2, h⟩ := hbo
        cases h
        have hst : StructsOk ((((k0 :: ks0).map KSpread.ty).find? (fun t => t ≠ .int)).getD .int) := by
          cases hf : (((k0 :: ks0).map KSpread.ty).find? (fun t => t ≠ .int)) with
          | none => simp [StructsOk]
          | some u => exact rawS_structs hS u (List.mem_of_find?_eq_some hf)
        obtain ⟨a1, a2, a3⟩ := alignS_spec hS hst (orReject_ok h2)
        have hne : es' ≠ [] := by rintro rfl; simp at a2
        refine ⟨.array a1 hst rfl (fun hn => ?_), fun hn => ?_⟩
        · obtain ⟨k', r', rfl⟩ := List.exists_cons_of_ne_nil hne
          exact ⟨k', r', rfl, ((a3 hn).2 k' r' rfl).1⟩
        · exact fin_array ((a3 (noInt_array.1 hn)).1 _ (Alike.refl _)) hne rfl
  | .repeat_ e c, k, h => by
    simp only [check] at h
    have hbo := bind_ok h
    clear h
    obtain ⟨k1, h1, h⟩ := hbo
    have hbo := bind_ok h
    clear h
    obtain ⟨k2, h2, h⟩ := hbo
    have hbo := bind_ok h
    clear h
    obtain ⟨c', h3, h⟩ := hbo
    have hbo := bind_ok h
    clear h
    obtain ⟨n, h4, h⟩ := hbo
    cases h
    have ie := check_spec hD hG e h1
    obtain ⟨b1, b2, _⟩ := scalarTo_spec (check_spec hD hG c h2) h3
    replace h4 := orReject_ok h4
    unfold sizeLit at h4
    split at h4 <;> cases h4
    rcases b1 with b1 | b1
    · simp [toT] at b1
    obtain ⟨e', q1, q2, q3, q4⟩ := b1
    simp only [toT] at q1
    cases q1
    have hn := (q4 trivial).1
    simp only [TExpr.Wt] at hn
    exact ⟨.repeat_ ie.1 q3 hn ie.1.structs (fun _ => Alike.refl _), fun hn' => fin_repeat (ie.2 (noInt_array.1 hn')) q3 hn⟩
  | .struct name names es, k, h => by
    simp only [check] at h
    split at h
    · cases h
    · rename_i ms hms
      split at h
      · cases h
      · rename_i hl
        have hbo := bind_ok h
        clear h
        obtain ⟨ks, h1, h⟩ := hbo
        have hbo := bind_ok h
        clear h
        obtain ⟨ks', h2, h⟩ := hbo
        cases h
        have hok := hD name ms hms
        have hn := hok.2
        simp only [primCount] at hn
        obtain ⟨a, b⟩ := pick_spec (checkL_spec hD hG es h1) hn h2
        exact ⟨.struct hms (by simpa using hl) hok a, fun _ => fin_struct hms (by simpa using hl) hok b⟩
  | .tuple es, k, h => by
    simp only [check] at h
    have hbo := bind_ok h
    clear h
    obtain ⟨ks, h1, h⟩ := hbo
    cases h
    have hL := checkL_spec hD hG es h1
    exact ⟨.tuple rfl (okkL_raw hL), fun hn => fin_tuple (okkL_fin hL (by simpa only [KExpr.ty, NoInt, primCount] using hn))⟩
theorem checkL_spec (hD : ∀ name ms, D name = some ms → TypeOk (.struct ms)) (hG : ∀ x t, G x = some t → TypeOk t) : ∀ (ss : List SExpr) {ks : List (KExpr (ZMod p))},
    checkL D G ss = .ok ks → OkkL D G ks ss
  | [], ks, h => by simp only [checkL] at h; cases h; exact .nil
  | s :: ss, ks, h => by
    simp only [checkL] at h
    have hbo := bind_ok h
    clear h
    obtain ⟨k, h1, h⟩ := hbo
    have hbo := bind_ok h
    clear h
    obtain ⟨ks', h2, h⟩ := hbo
    cases h
    exact .cons (check_spec hD hG s h1) (checkL_spec hD hG ss h2)
theorem checkS_spec (hD : ∀ name ms, D name = some ms → TypeOk (.struct ms)) (hG : ∀ x t, G x = some t → TypeOk t) : ∀ (ss : List SSpread) {ks : List (KSpread (ZMod p))},
    checkS D G ss = .ok ks → RawS D G ks ss
  | [], ks, h => by simp only [checkS] at h; cases h; exact .nil
  | .expr s :: ss, ks, h => by
    simp only [checkS] at h
    have hbo := bind_ok h
    clear h
    obtain ⟨k, h1, h⟩ := hbo
    have hbo := bind_ok h
    clear h
    obtain ⟨ks', h2, h⟩ := hbo
    cases h
    exact .expr (check_spec hD hG s h1).1 (checkS_spec hD hG ss h2)
  | .spread s :: ss, ks, h => by
    simp only [checkS] at h
    have hbo := bind_ok h
    clear h
    obtain ⟨k, h1, h⟩ := hbo
    split at h
    · rename_i hk
      have hbo := bind_ok h
      clear h
      obtain ⟨ks', h2, h⟩ := hbo
      cases h
      exact .spread (check_spec hD hG s h1).1 hk (checkS_spec hD hG ss h2)
    · cases h
end

end Zok.Sem
