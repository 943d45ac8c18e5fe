import Verif.Lemmas.StdKeccakHash
import Verif.Lemmas.StdShaPad
import Verif.Model.StdBlake
import Verif.Spec.Blake2s

/-
`hashes/blake2`.
-/

set_option linter.unusedSectionVars false

namespace Zok.Typed.Std
open Abi Blake2s
variable {p : ℕ} {Z : Type} [Fact p.Prime] {O : Oracle p Z} {P : Program (ZMod p)}

/-! ### Arrays of words -/

/-- An array of words. -/
def wordsF (n : ℕ) (f : ℕ → Word) : AVal (ZMod p) := arrF n fun k => wordV (f k)

theorem wordsF_congr {n : ℕ} {f g : ℕ → Word} (h : ∀ k < n, f k = g k) : wordsF (p := p) n f = wordsF n g := arrF_congr fun k hk => by rw [h k hk]

theorem wordsV_eq (s : List Word) : wordsV (p := p) s = wordsF s.length fun k => s.getD k 0 := by
  rw [wordsV, wordsF, arrF]
  congr 1
  refine List.ext_getElem (by simp) fun k h1 h2 => ?_
  simp only [List.length_map] at h1
  simp [h1]

theorem wordsF_eq (n : ℕ) (f : ℕ → Word) : wordsF (p := p) n f = wordsV ((List.range n).map f) := by
  rw [wordsV, wordsF, arrF, List.map_map]; rfl

theorem hasType_wordsF {n : ℕ} {f : ℕ → Word} : HasType (p := p) (u32s n) (wordsF n f) := hasType_arrF fun _ _ => hasType_wordV _

section
variable {env : TEnv p}

theorem ev_wl (n : ℕ) (h : n < 2 ^ 32) : evalT env (ul n) = .ok (wordV (BitVec.ofNat 32 n)) := by
  rw [ev_ul, wordV, BitVec.toNat_ofNat, Nat.mod_eq_of_lt h]
theorem ev_wsF {x : TId} {n : ℕ} {f : ℕ → Word} (h : env x = some (wordsF n f)) : evalT env (uvs x n) = .ok (wordsF n f) := ev_ident h hasType_wordsF
theorem ev_wselF {x : TId} {n k : ℕ} {f : ℕ → Word} {i : TExpr (ZMod p)} (h : env x = some (wordsF n f)) (hi : evalT env i = .ok (.uint .b32 k)) (hk : k < n) : evalT env (usel x n i) = .ok (wordV (f k)) :=
  ev_selF (f := fun k => wordV (f k)) h (fun _ _ => hasType_wordV _) hi hk
theorem setA_word {x : TId} {n k : ℕ} {f g : ℕ → Word} {i : TExpr (ZMod p)} {a : Word} (h : env x = some (wordsF n f)) (hi : evalT env i = .ok (.uint .b32 k)) (hk : k < n) (hg : ∀ j < n, g j = if j = k then a else f j) :
    setA env (.select (.ident x (.array n u32)) i) (wordV a) = .ok (wordsF n g) := by
  rw [setA_F (f := fun k => wordV (f k)) h (fun _ _ => hasType_wordV _) hi hk]
  congr 1
  refine arrF_congr fun j hj => ?_
  rw [hg j hj]
  split <;> rfl
end

theorem wp_setWord {σ : TState p} {x : TId} {n k : ℕ} {i e : TExpr (ZMod p)} {f : ℕ → Word} (g : ℕ → Word) {a : Word} {ss : List (SStmt (ZMod p))} {R : Except Fault (TState p) → Prop}
    (h : σ.env x = some (wordsF n f)) (hi : evalT σ.env i = .ok (.uint .b32 k)) (hk : k < n) (he : evalT σ.env e = .ok (wordV a)) (hg : ∀ j < n, g j = if j = k then a else f j)
    (hw : WP O P (σ.set x (wordsF n g)) ss R) : WP O P σ (setAt x n u32 i e :: ss) R :=
  wp_def he (setA_word h hi hk hg) hw

theorem wp_callWord {σ : TState p} {x : TId} {n k : ℕ} {key : ℕ} {i : TExpr (ZMod p)} {ns : List ℕ} {gens args : List (TExpr (ZMod p))} {f : ℕ → Word} (g : ℕ → Word) {a : Word} {ss : List (SStmt (ZMod p))} {R : Except Fault (TState p) → Prop}
    {fn : Inst (ZMod p)} {vs : List (AVal (ZMod p))} (h : σ.env x = some (wordsF n f)) (hi : evalT σ.env i = .ok (.uint .b32 k)) (hk : k < n) (hgen : evalL σ.env gens = .ok (ns.map (AVal.uint .b32))) (ha : evalL σ.env args = .ok vs)
    (hP : P key ns (args.map TExpr.ty) u32 = some (.here fn)) (hc : CallsTo O P fn vs (.ok (wordV a))) (hg : ∀ j < n, g j = if j = k then a else f j)
    (hw : WP O P (σ.set x (wordsF n g)) ss R) : WP O P σ (.call (.select (.ident x (.array n u32)) i) u32 key gens args :: ss) R := by
  refine wp_call (cwp_here ns hgen ha hP (FWP.mono (callsTo_iff.1 hc) ?_))
  rintro r rfl
  exact ⟨_, setA_word h hi hk hg, hw⟩

/-! ### Byte order -/

/-- The result of `swap_u32`. -/
def bswap32 (a : Word) : Word := a.extractLsb' 0 8 ++ a.extractLsb' 8 8 ++ a.extractLsb' 16 8 ++ a.extractLsb' 24 8

theorem swap32_eq (a : Word) : (a <<< 24) ||| ((a <<< 8) &&& 0x00ff0000#32) ||| ((a >>> 8) &&& 0x0000ff00#32) ||| ((a >>> 24) &&& 0x000000ff#32) = bswap32 a := by
  apply BitVec.eq_of_getLsbD_eq
  intro i hi
  have h : (bswap32 a).getLsbD i = (a.extractLsb' 0 8 ++ a.extractLsb' 8 8 ++ a.extractLsb' 16 8 ++ a.extractLsb' 24 8).getLsbD i := rfl
  rw [h]
  simp only [BitVec.getLsbD_append]
  interval_cases i <;> simp [BitVec.getElem_extractLsb']

theorem swapU32_spec (a : Word) : CallsTo O P swapU32 [wordV a] (.ok (wordV (bswap32 a))) := by
  rw [callsTo_iff, ← swap32_eq]
  refine fwp (wp_nil ?_)
  exact ev_wor (ev_wor (ev_wor (ev_wshl (ev_w lk(rfl)) ev_ul) (ev_wand (ev_wshl (ev_w lk(rfl)) ev_ul) (ev_wl _ (by norm_num)))) (ev_wand (ev_wshr (ev_w lk(rfl)) ev_ul) (ev_wl _ (by norm_num))))
    (ev_wand (ev_wshr (ev_w lk(rfl)) ev_ul) (ev_wl _ (by norm_num)))

/-! ### The mixing function -/

theorem wp_mixSet {σ : TState p} {v : Vec} {i i' : ℕ} {e : TExpr (ZMod p)} {a : Word} {ss : List (SStmt (ZMod p))} {R : Except Fault (TState p) → Prop} (h0 : σ.env 0 = some (wordsF 16 v))
    (hi : σ.env i = some (.uint .b32 i')) (hi' : i' < 16) (he : evalT σ.env e = .ok (wordV a)) (hw : WP O P (σ.set 0 (wordsF 16 (v.set i' a))) ss R) : WP O P σ (mixSet i e :: ss) R :=
  wp_setWord (v.set i' a) h0 (ev_uv hi (by omega)) hi' he (fun _ _ => rfl) hw

theorem wp_mixRot (hP : Imports P blake2) {σ : TState p} {v : Vec} {n i j i' j' : ℕ} {ss : List (SStmt (ZMod p))} {R : Except Fault (TState p) → Prop} (hn : n < 32) (h0 : σ.env 0 = some (wordsF 16 v))
    (hi : σ.env i = some (.uint .b32 i')) (hj : σ.env j = some (.uint .b32 j')) (hi' : i' < 16) (hj' : j' < 16)
    (hw : WP O P (σ.set 0 (wordsF 16 (v.set i' ((v i' ^^^ v j').rotateRight n)))) ss R) : WP O P σ (mixRot n i j :: ss) R :=
  wp_callWord (ns := [n]) (v.set i' ((v i' ^^^ v j').rotateRight n)) h0 (ev_uv hi (by omega)) hi' (evL_cons ev_ul evL_nil)
    (evL_cons (ev_wxor (ev_wselF h0 (ev_uv hi (by omega)) hi') (ev_wselF h0 (ev_uv hj (by omega)) hj')) evL_nil) (hP _ _ _ _ _ rfl) (rotr32_spec hn _) (fun _ _ => rfl) hw

theorem mixingG_spec (hP : Imports P blake2) (v : Vec) {a b c d : ℕ} (ha : a < 16) (hb : b < 16) (hc : c < 16) (hd : d < 16) (x y : Word) :
    CallsTo O P mixingG [wordsF 16 v, .uint .b32 a, .uint .b32 b, .uint .b32 c, .uint .b32 d, wordV x, wordV y] (.ok (wordsF 16 (G v a b c d x y))) := by
  rw [callsTo_iff]
  have hs : ∀ (σ : TState p) (v : Vec) (i i' : ℕ), σ.env 0 = some (wordsF 16 v) → σ.env i = some (.uint .b32 i') → i' < 16 → evalT σ.env (usel 0 16 (uv i)) = .ok (wordV (v i')) :=
    fun σ v i i' h0 hi hi' => ev_wselF h0 (ev_uv hi (by omega)) hi'
  refine fwp ?_
  refine wp_mixSet lk(rfl) lk(rfl) ha (ev_wadd (ev_wadd (hs _ v _ _ lk(rfl) lk(rfl) ha) (hs _ v _ _ lk(rfl) lk(rfl) hb)) (ev_w lk(rfl))) ?_
  refine wp_mixRot hP (by omega) lk(rfl) lk(rfl) lk(rfl) hd ha ?_
  refine wp_mixSet lk(rfl) lk(rfl) hc (ev_wadd (hs _ _ _ _ lk(rfl) lk(rfl) hc) (hs _ _ _ _ lk(rfl) lk(rfl) hd)) ?_
  refine wp_mixRot hP (by omega) lk(rfl) lk(rfl) lk(rfl) hb hc ?_
  refine wp_mixSet lk(rfl) lk(rfl) ha (ev_wadd (ev_wadd (hs _ _ _ _ lk(rfl) lk(rfl) ha) (hs _ _ _ _ lk(rfl) lk(rfl) hb)) (ev_w lk(rfl))) ?_
  refine wp_mixRot hP (by omega) lk(rfl) lk(rfl) lk(rfl) hd ha ?_
  refine wp_mixSet lk(rfl) lk(rfl) hc (ev_wadd (hs _ _ _ _ lk(rfl) lk(rfl) hc) (hs _ _ _ _ lk(rfl) lk(rfl) hd)) ?_
  refine wp_mixRot hP (by omega) lk(rfl) lk(rfl) lk(rfl) hb hc (wp_nil ?_)
  exact ev_wsF lk(rfl)

/-! ### The compression function -/

theorem blakeIV_eq : blakeIV = Sha256.H0.map BitVec.toNat := by decide +kernel
theorem sigma_eq : blakeSigma = SIGMA := rfl

theorem ev_blakeIV {env : TEnv p} : evalT env (ulits blakeIV) = .ok (wordsF 8 IV) := by
  rw [ev_ulits, blakeIV_eq, uintsV_words, wordsV_eq]; rfl

theorem sigma_lt : ∀ i < 10, ∀ k < 16, (SIGMA.getD i []).getD k 0 < 16 := by decide +kernel
theorem sigma_len : ∀ i < 10, (SIGMA.getD i []).length = 16 := by decide +kernel

theorem evS_rows {env : TEnv p} : ∀ ls : List (List ℕ), evalS env (ls.map fun s => .expr (ulits (p := p) s)) = .ok (ls.map (uintsV .b32))
  | [] => evS_nil
  | _ :: ls => evS_expr ev_ulits (evS_rows ls)

theorem wp_mixCall (hP : Imports P blake2) {σ : TState p} {v m : Vec} {s : List ℕ} (hs : s.length = 16) (hs' : ∀ k < 16, s.getD k 0 < 16) {a b c d i j : ℕ} {ss : List (SStmt (ZMod p))} {R : Except Fault (TState p) → Prop}
    (h4 : σ.env 4 = some (wordsF 16 v)) (h1 : σ.env 1 = some (wordsF 16 m)) (h6 : σ.env 6 = some (uintsV .b32 s)) (ha : a < 16) (hb : b < 16) (hc : c < 16) (hd : d < 16) (hi : i < 16) (hj : j < 16)
    (hw : WP O P (σ.set 4 (wordsF 16 (G v a b c d (m (s.getD i 0)) (m (s.getD j 0))))) ss R) : WP O P σ (mixCall a b c d i j :: ss) R := by
  have ht : HasType (p := p) (u32s 16) (uintsV .b32 s) := by
    simp only [uintsV, HasType, List.length_map, hs, true_and, List.mem_map]
    rintro v ⟨b, hb, rfl⟩
    obtain ⟨k, hk, rfl⟩ := List.getElem_of_mem hb
    have := hs' k (by omega)
    rw [List.getD_eq_getElem _ _ hk] at this
    exact ⟨rfl, show _ < 2 ^ 32 by omega⟩
  have hm : ∀ k < 16, evalT σ.env (usel 1 16 (usel 6 16 (ul k))) = .ok (wordV (m (s.getD k 0))) := by
    intro k hk
    refine ev_wselF h1 (ev_select (k := k) (ev_ident h6 ht) ev_ul ?_) (hs' k hk)
    rw [List.getElem?_map, List.getElem?_eq_getElem (by omega), List.getD_eq_getElem _ _ (by omega)]; rfl
  exact wp_callTo (evL_cons (ev_wsF h4) (evL_cons ev_ul (evL_cons ev_ul (evL_cons ev_ul (evL_cons ev_ul (evL_cons (hm i hi) (evL_cons (hm j hj) evL_nil))))))) (hP _ _ _ _ _ rfl) (mixingG_spec hP v ha hb hc hd _ _) hw

/-- The counter as a value. -/
def counterF (t : ℕ) : ℕ → Word := fun k => if k = 0 then BitVec.ofNat 32 t else BitVec.ofNat 32 (t / 2 ^ 32)

theorem blakeF_spec (hP : Imports P blake2) (h m : Vec) (t : ℕ) (f : Bool) : CallsTo O P blakeF [wordsF 8 h, wordsF 16 m, wordsF 2 (counterF t), .bool f] (.ok (wordsF 8 (F h m t f))) := by
  rw [callsTo_iff]
  refine fwp (wp_var (v := wordsF 16 fun k => if k < 8 then h k else IV (k - 8)) ?_ ?_)
  · refine (ev_array (evS_spread (ev_wsF lk(rfl)) (evS_spread ev_blakeIV evS_nil))).trans ?_
    rfl
  refine wp_setWord _ lk(rfl) ev_ul (by omega) (ev_wxor (ev_wselF lk(rfl) ev_ul (by omega)) (ev_wselF (n := 2) (f := counterF t) lk(rfl) ev_ul (by omega))) (fun _ _ => rfl) ?_
  refine wp_setWord _ lk(rfl) ev_ul (by omega) (ev_wxor (ev_wselF lk(rfl) ev_ul (by omega)) (ev_wselF (n := 2) (f := counterF t) lk(rfl) ev_ul (by omega))) (fun _ _ => rfl) ?_
  refine wp_setWord (work h t f) (a := if f then ~~~IV 6 else IV 6) lk(rfl) ev_ul (by omega) ?_ ?_ ?_
  · refine (ev_cond (x := f) (ev_ident (t := .bool) (v := .bool f) lk(rfl) (by simp [HasType])) (ev_wxor (ev_wselF lk(rfl) ev_ul (by omega)) (ev_wl _ (by norm_num))) (ev_wselF lk(rfl) ev_ul (by omega))).trans ?_
    change Except.ok (if f = true then wordV (IV 6 ^^^ BitVec.ofNat 32 0xFFFFFFFF) else wordV (IV 6)) = _
    rw [show IV 6 ^^^ BitVec.ofNat 32 0xFFFFFFFF = ~~~IV 6 by decide +kernel]
    cases f <;> rfl
  · intro j hj
    interval_cases j <;> rfl
  refine wp_for (l := 0) (h := 10) (fun i σ => σ.env 0 = some (wordsF 8 h) ∧ σ.env 1 = some (wordsF 16 m) ∧ σ.env 4 = some (wordsF 16 (rounds m (work h t f) i))) ev_ul ev_ul (by omega) ⟨rfl, rfl, rfl⟩ ?_ ?_
  · rintro i σ - hi ⟨h0, h1, h4⟩
    have hl := sigma_len i hi
    have hlt := sigma_lt i hi
    refine wp_var (v := uintsV .b32 (SIGMA.getD i [])) ?_ ?_
    · refine ev_select (k := i) (ev_array (evS_rows blakeSigma)) (ev_uv lk(rfl) (by omega)) ?_
      rw [List.getElem?_map, sigma_eq, List.getElem?_eq_getElem (show i < SIGMA.length from hi), List.getD_eq_getElem _ _ (show i < SIGMA.length from hi)]; rfl
    refine wp_mixCall hP hl hlt lk(h4) lk(h1) lk(rfl) (by omega) (by omega) (by omega) (by omega) (by omega) (by omega) ?_
    refine wp_mixCall hP hl hlt lk(rfl) lk(h1) lk(rfl) (by omega) (by omega) (by omega) (by omega) (by omega) (by omega) ?_
    refine wp_mixCall hP hl hlt lk(rfl) lk(h1) lk(rfl) (by omega) (by omega) (by omega) (by omega) (by omega) (by omega) ?_
    refine wp_mixCall hP hl hlt lk(rfl) lk(h1) lk(rfl) (by omega) (by omega) (by omega) (by omega) (by omega) (by omega) ?_
    refine wp_mixCall hP hl hlt lk(rfl) lk(h1) lk(rfl) (by omega) (by omega) (by omega) (by omega) (by omega) (by omega) ?_
    refine wp_mixCall hP hl hlt lk(rfl) lk(h1) lk(rfl) (by omega) (by omega) (by omega) (by omega) (by omega) (by omega) ?_
    refine wp_mixCall hP hl hlt lk(rfl) lk(h1) lk(rfl) (by omega) (by omega) (by omega) (by omega) (by omega) (by omega) ?_
    refine wp_mixCall hP hl hlt lk(rfl) lk(h1) lk(rfl) (by omega) (by omega) (by omega) (by omega) (by omega) (by omega) (wp_nil ⟨h0, h1, rfl⟩)
  rintro σ ⟨h0, -, h4⟩
  rw [show F h m t f = fun k => h k ^^^ rounds m (work h t f) 10 k ^^^ rounds m (work h t f) 10 (k + 8) from rfl]
  generalize rounds m (work h t f) 10 = v at h4 ⊢
  refine wp_for (l := 0) (h := 8) (fun i σ => σ.env 4 = some (wordsF 16 v) ∧ σ.env 0 = some (wordsF 8 fun k => if k < i then h k ^^^ v k ^^^ v (k + 8) else h k)) ev_ul ev_ul (by omega) ⟨h4, h0.trans rfl⟩ ?_ ?_
  · clear h0 h4 σ
    rintro i σ - hi ⟨h4, h0⟩
    refine wp_setWord _ lk(h0) (ev_uv lk(rfl) (by omega)) hi (ev_wxor (ev_wxor (ev_wselF lk(h0) (ev_uv lk(rfl) (by omega)) hi) (ev_wselF lk(h4) (ev_uv lk(rfl) (by omega)) (by omega)))
      (ev_wselF lk(h4) (ev_iadd (ev_uv lk(rfl) (by omega)) ev_ul (by omega)) (by omega))) ?_ (wp_nil ⟨h4, rfl⟩)
    intro j _
    rw [if_neg (show ¬ i < i by omega)]
    by_cases hj : j = i
    · subst hj; rw [if_pos (by omega), if_pos rfl]
    · rw [if_neg hj]
      exact if_congr (by omega) rfl rfl
  · clear h0 h4 σ
    rintro σ ⟨-, h0⟩
    refine wp_nil ((ev_wsF lk(h0)).trans ?_)
    rw [wordsF_congr fun k hk => if_pos hk]

/-! ### The hash -/

theorem setA_F2 {env : TEnv p} {x : TId} {m n k l : ℕ} {t : CType} {f : ℕ → ℕ → AVal (ZMod p)} {i j : TExpr (ZMod p)} {v : AVal (ZMod p)} (h : env x = some (arrF m fun i => arrF n (f i))) (ht : ∀ i < m, ∀ j < n, HasType t (f i j))
    (hi : evalT env i = .ok (.uint .b32 k)) (hj : evalT env j = .ok (.uint .b32 l)) (hk : k < m) (hl : l < n) :
    setA env (.select (.select (.ident x (.array m (.array n t))) i) j) v = .ok (arrF m fun i => arrF n fun j => if i = k ∧ j = l then v else f i j) := by
  rw [setA_select2 (vs := (List.range n).map (f k)) h (hasType_arrF fun i hi => hasType_arrF (ht i hi)) hi hj (by simp [hk, arrF]) (by simpa using hl), arrF]
  congr 2
  refine List.ext_getElem (by simp) fun a h1 h2 => ?_
  rw [List.getElem_set]
  simp only [List.getElem_map, List.getElem_range]
  by_cases ha : k = a
  · subst ha
    rw [if_pos rfl, arrF]
    congr 1
    refine List.ext_getElem (by simp) fun b h3 h4 => ?_
    rw [List.getElem_set]
    simp only [List.getElem_map, List.getElem_range, true_and]
    by_cases hb : l = b
    · rw [if_pos hb, if_pos hb.symm]
    · rw [if_neg hb, if_neg fun h => hb h.symm]
  · rw [if_neg ha]
    refine arrF_congr fun b _ => ?_
    rw [if_neg fun h => ha h.1.symm]

theorem carry (n : ℕ) : (if BitVec.ofNat 32 ((n + 1) * 64) = 0 then BitVec.ofNat 32 (n * 64 / 2 ^ 32) + 1 else BitVec.ofNat 32 (n * 64 / 2 ^ 32)) = BitVec.ofNat 32 ((n + 1) * 64 / 2 ^ 32) := by
  have h0 : BitVec.ofNat 32 ((n + 1) * 64) = 0 ↔ (n + 1) * 64 % 2 ^ 32 = 0 := by
    rw [← BitVec.toNat_inj]; simp
  by_cases h : (n + 1) * 64 % 2 ^ 32 = 0
  · rw [if_pos (h0.2 h), show (n + 1) * 64 / 2 ^ 32 = n * 64 / 2 ^ 32 + 1 by omega, BitVec.ofNat_add]; rfl
  · rw [if_neg fun h' => h (h0.1 h'), show (n + 1) * 64 / 2 ^ 32 = n * 64 / 2 ^ 32 by omega]

theorem ev_carry {env : TEnv p} (n : ℕ) (h3 : env 3 = some (wordV (BitVec.ofNat 32 ((n + 1) * 64)))) (h4 : env 4 = some (wordV (BitVec.ofNat 32 (n * 64 / 2 ^ 32)))) :
    evalT env (.cond u32 (.eq (uv 3) (ul 0)) (uadd (uv 4) (ul 1)) (uv 4)) = .ok (wordV (BitVec.ofNat 32 ((n + 1) * 64 / 2 ^ 32))) := by
  classical
  refine (ev_cond (ev_eq (ev_w h3) (ev_wl 0 (by norm_num))) (ev_wadd (ev_w h4) (ev_wl 1 (by norm_num))) (ev_w h4)).trans ?_
  rw [← carry n]
  have : (wordV (p := p) (BitVec.ofNat 32 ((n + 1) * 64)) = wordV (BitVec.ofNat 32 0)) ↔ BitVec.ofNat 32 ((n + 1) * 64) = 0 := by
    rw [wordV, wordV, ← BitVec.toNat_inj]; simp
  by_cases h : BitVec.ofNat 32 ((n + 1) * 64) = 0
  · rw [if_pos h, decide_eq_true (this.2 h)]; rfl
  · rw [if_neg h, decide_eq_false fun h' => h (this.1 h')]; rfl

/-- Rows of words. -/
def rowsF (K : ℕ) (w : ℕ → Vec) : AVal (ZMod p) := arrF K fun i => wordsF 16 (w i)

theorem ev_row {env : TEnv p} {x : TId} {K k : ℕ} {w : ℕ → Vec} {i : TExpr (ZMod p)} (h : env x = some (rowsF K w)) (hi : evalT env i = .ok (.uint .b32 k)) (hk : k < K) :
    evalT env (.select (u32s 16) (.ident x (.array K (u32s 16))) i) = .ok (wordsF 16 (w k)) :=
  ev_selF (f := fun i => wordsF 16 (w i)) h (fun _ _ => hasType_wordsF) hi hk

theorem ev_counter {env : TEnv p} {t : ℕ} (h3 : env 3 = some (wordV (BitVec.ofNat 32 t))) (h4 : env 4 = some (wordV (BitVec.ofNat 32 (t / 2 ^ 32)))) :
    evalT env (.array u32 2 [.expr (uv 3), .expr (uv 4)]) = .ok (wordsF 2 (counterF t)) :=
  ev_array (evS_expr (ev_w h3) (evS_expr (ev_w h4) evS_nil))

theorem init_zero (person : List Byte) : init person 0 = IV 0 ^^^ BitVec.ofNat 32 0x01010000 ^^^ BitVec.ofNat 32 0x00000020 := by
  show IV 0 ^^^ 0x01010020 = _
  decide +kernel
theorem init_mid (person : List Byte) (k : ℕ) (h1 : 1 ≤ k) (h2 : k ≤ 5) : init person k = IV k := by
  rw [init, if_neg (by omega), if_neg (by omega), if_neg (by omega)]
  exact BitVec.xor_zero

theorem blakeP_spec (hP : Imports P blake2) {K : ℕ} (hK : 1 ≤ K) (hK2 : K < 2 ^ 32) {s person : List Byte} (hs : s.length = 64 * K) {w : ℕ → Vec} {q : Vec} (hw : ∀ i < K, ∀ j < 16, bswap32 (w i j) = block s i j)
    (hq : ∀ k < 2, bswap32 (q k) = word person k) :
    CallsTo O P (blakeP K) [rowsF K w, wordsF 2 q] (.ok (wordsF 8 fun k => bswap32 (F (state person s (K - 1)) (block s (K - 1)) s.length true k))) := by
  rw [callsTo_iff]
  have hiv : ∀ (env : TEnv p) (k : ℕ), k < 8 → evalT env (blakeIVsel k) = .ok (wordV (IV k)) := by
    intro env k hk
    exact ev_select ev_blakeIV ev_ul (by simp [hk])
  refine fwp ?_
  refine wp_callTo (evL_cons (ev_wselF (n := 2) (f := q) lk(rfl) ev_ul (by omega)) evL_nil) (hP _ _ _ _ _ rfl) (swapU32_spec _) ?_
  refine wp_callTo (evL_cons (ev_wselF (n := 2) (f := q) lk(rfl) ev_ul (by omega)) evL_nil) (hP _ _ _ _ _ rfl) (swapU32_spec _) ?_
  rw [hq 0 (by omega), hq 1 (by omega)]
  refine wp_var (v := wordsF 8 (init person)) ?_ ?_
  · refine (ev_array (evS_expr (ev_wxor (ev_wxor (hiv _ 0 (by omega)) (ev_wl _ (by norm_num))) (ev_wl _ (by norm_num))) (evS_expr (hiv _ 1 (by omega)) (evS_expr (hiv _ 2 (by omega)) (evS_expr (hiv _ 3 (by omega))
      (evS_expr (hiv _ 4 (by omega)) (evS_expr (hiv _ 5 (by omega)) (evS_expr (ev_wxor (hiv _ 6 (by omega)) (ev_w lk(rfl))) (evS_expr (ev_wxor (hiv _ 7 (by omega)) (ev_w lk(rfl))) evS_nil))))))))).trans ?_
    have h8 : List.range 8 = [0, 1, 2, 3, 4, 5, 6, 7] := rfl
    simp only [wordsF, arrF, h8, List.map_cons, List.map_nil, init_zero, init_mid person 1 (by omega) (by omega), init_mid person 2 (by omega) (by omega), init_mid person 3 (by omega) (by omega),
      init_mid person 4 (by omega) (by omega), init_mid person 5 (by omega) (by omega)]
    rfl
  refine wp_var ev_ul (wp_var ev_ul ?_)
  -- byte order of the input
  refine wp_for (l := 0) (h := K) (fun i σ => σ.env 9 = some (.uint .b32 K) ∧ σ.env 2 = some (wordsF 8 (init person)) ∧ σ.env 3 = some (.uint .b32 0) ∧ σ.env 4 = some (.uint .b32 0) ∧
    σ.env 0 = some (rowsF K fun k => if k < i then block s k else w k)) ev_ul (ev_uv lk(rfl) hK2) (by omega) ⟨rfl, rfl, rfl, rfl, rfl⟩ ?_ ?_
  · rintro i σ - hi ⟨h9, h2, h3, h4, h0⟩
    refine wp_for (l := 0) (h := 16) (fun j σ => σ.env 5 = some (.uint .b32 i) ∧ σ.env 9 = some (.uint .b32 K) ∧ σ.env 2 = some (wordsF 8 (init person)) ∧ σ.env 3 = some (.uint .b32 0) ∧ σ.env 4 = some (.uint .b32 0) ∧
      σ.env 0 = some (rowsF K fun k l => if k < i ∨ k = i ∧ l < j then block s k l else w k l)) ev_ul ev_ul (by omega) ⟨rfl, h9, h2, h3, h4, ?_⟩ ?_ ?_
    · refine Eq.trans h0 ?_
      congr 1
      refine arrF_congr fun k hk => wordsF_congr fun l hl => ?_
      by_cases h : k < i <;> simp [h]
    · clear h0 h2 h3 h4 h9 σ
      rintro j σ - hj ⟨h5, h9, h2, h3, h4, h0⟩
      refine wp_call (cwp_here [] evL_nil (vs := [wordV (w i j)]) (evL_cons (ev_select (ev_row lk(h0) (ev_uv lk(h5) (by omega)) hi) (ev_uv (n := j) lk(rfl) (by omega)) ?_) evL_nil) (hP _ _ _ _ _ rfl) (FWP.mono (callsTo_iff.1 (swapU32_spec (w i j))) ?_))
      · simp [hj]
      rintro r rfl
      refine ⟨_, setA_F2 (f := fun k l => wordV (if k < i ∨ k = i ∧ l < j then block s k l else w k l)) h0 (fun _ _ _ _ => hasType_wordV _) (ev_uv lk(h5) (by omega)) (ev_uv (n := j) lk(rfl) (by omega)) hi hj, wp_nil ⟨h5, h9, h2, h3, h4, ?_⟩⟩
      change some _ = some _
      congr 1
      refine arrF_congr fun k hk => arrF_congr fun l hl => ?_
      by_cases h : k = i ∧ l = j
      · obtain ⟨rfl, rfl⟩ := h
        rw [if_pos ⟨rfl, rfl⟩, hw _ hi _ hj]
        beta_reduce
        rw [if_pos (by omega)]
      · rw [if_neg h]
        congr 1
        exact if_congr (by omega) rfl rfl
    · clear h0 h2 h3 h4 h9 σ
      rintro σ ⟨-, h9, h2, h3, h4, h0⟩
      refine wp_nil ⟨h9, h2, h3, h4, h0.trans ?_⟩
      congr 1
      refine arrF_congr fun k hk => wordsF_congr fun l hl => ?_
      beta_reduce
      by_cases h : k < i + 1
      · rw [if_pos (by omega), if_pos h]
      · rw [if_neg (by omega), if_neg h]
  rintro σ ⟨h9, h2, h3, h4, h0⟩
  replace h0 : σ.env 0 = some (rowsF K (block s)) := by
    refine h0.trans ?_
    congr 1
    refine arrF_congr fun k hk => ?_
    beta_reduce
    rw [if_pos hk]
  -- blocks
  refine wp_for (l := 0) (h := K - 1) (fun i σ => σ.env 9 = some (.uint .b32 K) ∧ σ.env 0 = some (rowsF K (block s)) ∧ σ.env 2 = some (wordsF 8 (state person s i)) ∧ σ.env 3 = some (wordV (BitVec.ofNat 32 (i * 64))) ∧
    σ.env 4 = some (wordV (BitVec.ofNat 32 (i * 64 / 2 ^ 32)))) ev_ul (ev_isub (ev_uv lk(h9) hK2) ev_ul hK hK2) (by omega) ⟨h9, h0, h2, h3.trans rfl, h4.trans rfl⟩ ?_ ?_
  · clear h0 h2 h3 h4 h9 σ
    rintro i σ - hi ⟨h9, h0, h2, h3, h4⟩
    refine wp_var (v := wordV (BitVec.ofNat 32 ((i + 1) * 64))) ?_ ?_
    · refine (ev_ubin (ev_iadd (ev_uv (n := i) lk(rfl) (by omega)) ev_ul (by omega)) ev_ul rfl).trans ?_
      simp [wordV, UW.bits]
    refine wp_var (ev_carry i lk(rfl) lk(h4)) ?_
    exact wp_callTo (evL_cons (ev_wsF lk(h2)) (evL_cons (ev_row lk(h0) (ev_uv lk(rfl) (by omega)) (by omega)) (evL_cons (ev_counter lk(rfl) lk(rfl)) (evL_cons ev_bval evL_nil)))) (hP _ _ _ _ _ rfl) (blakeF_spec hP _ _ _ _)
      (wp_nil ⟨h9, h0, rfl, rfl, rfl⟩)
  clear h0 h2 h3 h4 h9 σ
  rintro σ ⟨h9, h0, h2, h3, h4⟩
  have hK3 : K - 1 + 1 = K := by omega
  refine wp_var (v := wordV (BitVec.ofNat 32 ((K - 1 + 1) * 64))) ?_ ?_
  · rw [Nat.add_mul, BitVec.ofNat_add]
    exact ev_wadd (ev_w lk(h3)) (ev_wl 64 (by norm_num))
  refine wp_var (ev_carry (K - 1) lk(rfl) lk(h4)) ?_
  rw [hK3, show K * 64 = s.length by omega]
  refine wp_callTo (evL_cons (ev_wsF lk(h2)) (evL_cons (ev_row lk(h0) (ev_isub (ev_uv lk(h9) hK2) ev_ul hK hK2) (by omega)) (evL_cons (ev_counter lk(rfl) lk(rfl)) (evL_cons ev_bval evL_nil)))) (hP _ _ _ _ _ rfl) (blakeF_spec hP _ _ _ _) ?_
  generalize F (state person s (K - 1)) (block s (K - 1)) s.length true = r
  -- byte order of the output
  refine wp_for (l := 0) (h := 8) (fun i σ => σ.env 2 = some (wordsF 8 fun k => if k < i then bswap32 (r k) else r k)) ev_ul ev_ul (by omega) rfl ?_ ?_
  · clear h0 h2 h3 h4 h9 σ
    rintro i σ - hi h2
    refine wp_callWord (ns := []) (f := fun k => if k < i then bswap32 (r k) else r k) (fun k => if k < i + 1 then bswap32 (r k) else r k) lk(h2) (ev_uv lk(rfl) (by omega)) hi evL_nil (evL_cons (ev_wselF lk(h2) (ev_uv lk(rfl) (by omega)) hi) evL_nil)
      (hP _ _ _ _ _ rfl) (swapU32_spec _) ?_ (wp_nil rfl)
    intro j _
    rw [if_neg (show ¬ i < i by omega)]
    by_cases hj : j = i
    · subst hj; rw [if_pos (by omega), if_pos rfl]
    · rw [if_neg hj]
      exact if_congr (by omega) rfl rfl
  · clear h0 h2 h3 h4 h9 σ
    rintro σ h2
    refine wp_nil ((ev_wsF lk(h2)).trans ?_)
    rw [wordsF_congr fun k hk => if_pos hk]

/-! ### Bytes -/

theorem append8_getLsbD {n : ℕ} (a : BitVec n) (b : Byte) (i : ℕ) : (a ++ b).getLsbD i = if i < 8 then b.getLsbD i else a.getLsbD (i - 8) := BitVec.getLsbD_append

theorem bswap32_append (a b c d : Byte) : bswap32 (a ++ b ++ c ++ d) = d ++ c ++ b ++ a := by
  apply BitVec.eq_of_getLsbD_eq
  intro i hi
  rw [show bswap32 (a ++ b ++ c ++ d) = ((a ++ b ++ c ++ d : Word).extractLsb' 0 8 ++ (a ++ b ++ c ++ d : Word).extractLsb' 8 8 ++ (a ++ b ++ c ++ d : Word).extractLsb' 16 8 ++ (a ++ b ++ c ++ d : Word).extractLsb' 24 8 : Word) from rfl]
  have h := hi
  simp only [append8_getLsbD, BitVec.getLsbD_extractLsb']
  interval_cases i <;> simp [append8_getLsbD, BitVec.getElem_append]

theorem length_hash (person s : List Byte) : (hash person s).length = 32 := by simp [Blake2s.hash]

theorem hash_words {K : ℕ} (hK : 1 ≤ K) {s person : List Byte} (hs : s.length = 64 * K) :
    wordsF (p := p) 8 (fun k => bswap32 (F (state person s (K - 1)) (block s (K - 1)) s.length true k)) = wordsV (wordsBE (hash person s)) := by
  rw [wordsF_eq, wordsBE, length_hash]
  congr 1
  refine List.map_congr_left fun k hk => ?_
  have hk : k < 8 := by simpa using hk
  have hd : max 1 ((s.length + 63) / 64) - 1 = K - 1 := by rw [hs]; omega
  have hg : ∀ j < 4, (hash person s).getD (4 * k + j) 0 = (F (state person s (K - 1)) (block s (K - 1)) s.length true k).extractLsb' (8 * j) 8 := by
    intro j hj
    rw [List.getD_eq_getElem _ _ (by rw [length_hash]; omega)]
    simp only [Blake2s.hash, List.getElem_map, List.getElem_range]
    rw [hd, show (4 * k + j) / 4 = k by omega, show (4 * k + j) % 4 = j by omega]
  have h0 := hg 0 (by omega)
  rw [Nat.add_zero] at h0
  rw [h0, hg 1 (by omega), hg 2 (by omega), hg 3 (by omega)]
  rfl

theorem getD_block (s : List Byte) (i j : ℕ) (hj : j < 64) : ((s.drop (64 * i)).take 64).getD j 0 = s.getD (64 * i + j) 0 := by
  simp [List.getD_eq_getElem?_getD, hj]

theorem wordsBE_block {s : List Byte} {K i : ℕ} (hs : s.length = 64 * K) (hi : i < K) :
    wordsV (p := p) (wordsBE ((s.drop (64 * i)).take 64)) = wordsF 16 fun j => bswap32 (block s i j) := by
  have hl : ((s.drop (64 * i)).take 64).length / 4 = 16 := by simp [hs]; omega
  rw [wordsF_eq, wordsBE, hl]
  congr 1
  refine List.map_congr_left fun k hk => ?_
  have hk : k < 16 := by simpa using hk
  rw [getD_block _ _ _ (by omega), getD_block _ _ _ (by omega), getD_block _ _ _ (by omega), getD_block _ _ _ (by omega), block, word, bswap32_append, show 4 * (16 * i + k) = 64 * i + 4 * k by omega]
  rfl

theorem bswap32_bswap32 (a : Word) : bswap32 (bswap32 a) = a := by
  conv_lhs => rw [show bswap32 a = (a.extractLsb' 0 8 ++ a.extractLsb' 8 8 ++ a.extractLsb' 16 8 ++ a.extractLsb' 24 8 : Word) from rfl]
  rw [bswap32_append]
  apply BitVec.eq_of_getLsbD_eq
  intro i hi
  simp only [append8_getLsbD, BitVec.getLsbD_extractLsb']
  interval_cases i <;> simp

/-- The input of the functions: blocks of words. -/
theorem rows_block {s : List Byte} {K : ℕ} (hs : s.length = 64 * K) : (AVal.array ((List.range K).map fun i => wordsV (p := p) (wordsBE ((s.drop (64 * i)).take 64)))) = rowsF K fun i j => bswap32 (block s i j) :=
  arrF_congr fun _ hi => wordsBE_block hs hi

theorem person_words {person : List Byte} (hp : person.length = 8) : wordsV (p := p) (wordsBE person) = wordsF 2 fun k => bswap32 (word person k) := by
  rw [wordsF_eq, wordsBE, hp]
  congr 1
  refine List.map_congr_left fun k hk => ?_
  rw [word, bswap32_append]

theorem blakeP_hash (hP : Imports P blake2) {K : ℕ} (hK : 1 ≤ K) (hK2 : K < 2 ^ 32) {s person : List Byte} (hs : s.length = 64 * K) (hp : person.length = 8) :
    CallsTo O P (blakeP K) [.array ((List.range K).map fun i => wordsV (wordsBE ((s.drop (64 * i)).take 64))), wordsV (wordsBE person)] (.ok (wordsV (wordsBE (hash person s)))) := by
  rw [rows_block hs, person_words hp, ← hash_words hK hs]
  exact blakeP_spec hP hK hK2 hs (fun _ _ _ _ => bswap32_bswap32 _) (fun _ _ => bswap32_bswap32 _)

theorem blake2s_hash (hP : Imports P blake2) {K : ℕ} (hK : 1 ≤ K) (hK2 : K < 2 ^ 32) {s : List Byte} (hs : s.length = 64 * K) :
    CallsTo O P (blake2s K) [.array ((List.range K).map fun i => wordsV (wordsBE ((s.drop (64 * i)).take 64)))] (.ok (wordsV (wordsBE (hash (List.replicate 8 0) s)))) := by
  rw [callsTo_iff]
  have hl : (wordsBE (hash (List.replicate 8 0) s)).length = 8 := by simp [wordsBE, length_hash]
  refine fwp (wp_callTo (evL_cons (ev_ident (v := .array ((List.range K).map fun i => wordsV (wordsBE ((s.drop (64 * i)).take 64)))) lk(rfl) ?_) (evL_cons (v := wordsV (wordsBE (List.replicate 8 0))) ?_ evL_nil)) (hP _ _ _ _ _ rfl)
    (blakeP_hash hP hK hK2 hs (by simp)) (wp_nil (ev_ws lk(rfl) hl)))
  · rw [rows_block hs]
    exact hasType_arrF fun _ _ => hasType_wordsF
  · refine (ev_repeat ev_ul ev_ul).trans ?_
    rfl

end Zok.Typed.Std
