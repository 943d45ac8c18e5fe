import Verif.Lemmas.StdShaPad
import Verif.Model.StdEddsa
import Verif.Lemmas.StdCastsArr
import Verif.Lemmas.StdEcc

/-
`hashes/sha256/512bitPacked`, `hashes/utils` and `signatures`.
-/

set_option linter.unusedSectionVars false

namespace Zok.Typed.Std
open Abi Sha256
variable {p : ℕ} {Z : Type} [Fact p.Prime] {O : Oracle p Z} {P : Program (ZMod p)}

theorem directionHelper_spec {b : Bool} {l r : List Word} (hl : l.length = 8) (hr : r.length = 8) :
    CallsTo O P directionHelper [.bool b, wordsV l, wordsV r] (.ok (wordsV (if b then r ++ l else l ++ r))) := by
  rw [callsTo_iff]
  refine fwp (wp_nil ?_)
  refine (ev_cond (x := b) (ev_ident lk(rfl) (by exact trivial)) (ev_array (evS_spread (ev_ws lk(rfl) hr) (evS_spread (ev_ws lk(rfl) hl) evS_nil)))
    (ev_array (evS_spread (ev_ws lk(rfl) hl) (evS_spread (ev_ws lk(rfl) hr) evS_nil)))).trans ?_
  cases b <;> simp [wordsV]

/-- Numbers as words. -/
theorem exists_words {ns : List ℕ} (h : ∀ n ∈ ns, n < 2 ^ 32) : ∃ ws : List Word, ns = ws.map BitVec.toNat ∧ ws = ns.map (BitVec.ofNat 32) := by
  refine ⟨_, ?_, rfl⟩
  rw [List.map_map]
  conv_lhs => rw [← List.map_id ns]
  refine List.map_congr_left fun n hn => ?_
  exact (Nat.mod_eq_of_lt (h n hn)).symm

theorem flatMap_toNat (ws : List Word) : (ws.map BitVec.toNat).flatMap (bitsBE 32) = wordBits ws := by rw [wordBits, List.flatMap_map]

theorem okTo_unpackU32 {σ : TState p} {ss : List (SStmt (ZMod p))} {ret : TExpr (ZMod p)} {r : AVal (ZMod p)} {x : TId} {e : TExpr (ZMod p)} {a : ZMod p} (hP : Imports P utils) (hO : Unpacks O) (hC : Canonical O) (hp : p ≠ 2)
    (he : evalT σ.env e = .ok (.field a)) (ht : e.ty = .field) :
    OkTo O P σ (call x (u32s 4) kUnpackU32 [e] :: ss) ret r ↔ ∃ ws : List Word, (ws.length = 4 ∧ a.val = natBE (wordBits ws)) ∧ OkTo O P (σ.set x (wordsV ws)) ss ret r := by
  rw [call, okTo_call (Q := fun v => ∃ ns : List ℕ, ns.length = 4 ∧ (∀ n ∈ ns, n < 2 ^ 32) ∧ a.val = natBE (ns.flatMap (bitsBE 32)) ∧ v = uintsV .b32 ns)
    (fun w => by rw [call_here (i := unpackU32x4) [] evL_nil (evL_cons he evL_nil) (hP _ _ _ _ _ (by simp [ht, utils])), unpackU32x4_spec hP hO hC hp])]
  constructor
  · rintro ⟨v, ⟨ns, h1, h2, h3, rfl⟩, h4⟩
    obtain ⟨ws, rfl, -⟩ := exists_words h2
    rw [flatMap_toNat] at h3
    rw [uintsV_words] at h4
    exact ⟨ws, ⟨by simpa using h1, h3⟩, h4⟩
  · rintro ⟨ws, ⟨h1, h2⟩, h3⟩
    refine ⟨_, ⟨ws.map BitVec.toNat, by simpa using h1, ?_, by rw [flatMap_toNat]; exact h2, (uintsV_words _).symm⟩, h3⟩
    intro n hn
    obtain ⟨w, -, rfl⟩ := List.mem_map.1 hn
    exact w.isLt

theorem packWords_spec (hP : Imports P utils) {ws : List Word} {N : ℕ} (hN : ws.length = N) (hN2 : N * 32 < 2 ^ 32) :
    CallsTo O P (packU32 N) [wordsV ws] (.ok (.field (natBE (wordBits ws) : ℕ))) := by
  have := packU32_spec (O := O) (ns := ws.map BitVec.toNat) hP (fun n hn => by obtain ⟨w, -, rfl⟩ := List.mem_map.1 hn; exact w.isLt) (by simpa using hN) hN2
  rwa [uintsV_words, flatMap_toNat] at this

theorem ev_wslice {env : TEnv p} {x : TId} {n m l h : ℕ} {xs : List Word} (hx : env x = some (wordsV xs)) (hn : xs.length = n) (hl : l ≤ h) (hh : h ≤ n) :
    evalT env (.slice u32 m (uvs x n) (ul l) (ul h)) = .ok (wordsV ((xs.take h).drop l)) := by
  refine (ev_slice (vs := xs.map wordV) (ev_ws hx hn) ev_ul ev_ul hl (by simpa [hn] using hh)).trans ?_
  rw [← List.map_take, ← List.map_drop]
  rfl

theorem sha512bitPacked_spec (hS : Imports P sha) (hU : Imports P utils) (hO : Unpacks O) (hC : Canonical O) (hp : p ≠ 2) {x0 x1 x2 x3 : ZMod p} {r : AVal (ZMod p)} :
    Calls O P sha512bitPacked [fieldsV [x0, x1, x2, x3]] (.ok r) ↔ (x0.val < 2 ^ 128 ∧ x1.val < 2 ^ 128 ∧ x2.val < 2 ^ 128 ∧ x3.val < 2 ^ 128) ∧
      r = fieldsV [(natBE (wordBits ((Sha256.sha256 (bitsBE 128 x0.val ++ bitsBE 128 x1.val ++ bitsBE 128 x2.val ++ bitsBE 128 x3.val)).take 4)) : ℕ),
        (natBE (wordBits ((Sha256.sha256 (bitsBE 128 x0.val ++ bitsBE 128 x1.val ++ bitsBE 128 x2.val ++ bitsBE 128 x3.val)).drop 4)) : ℕ)] := by
  have e0 : (calleeState sha512bitPacked [fieldsV [x0, x1, x2, x3]]).env 0 = some (fieldsV [x0, x1, x2, x3]) := rfl
  rw [calls_okTo]
  generalize calleeState sha512bitPacked [fieldsV [x0, x1, x2, x3]] = σ0 at e0
  have key : OkTo O P σ0 (sha512bitPacked (p := p)).body (sha512bitPacked (p := p)).ret r ↔ ∃ a : List Word, (a.length = 4 ∧ x0.val = natBE (wordBits a)) ∧ ∃ b : List Word, (b.length = 4 ∧ x1.val = natBE (wordBits b)) ∧
      ∃ c : List Word, (c.length = 4 ∧ x2.val = natBE (wordBits c)) ∧ ∃ d : List Word, (d.length = 4 ∧ x3.val = natBE (wordBits d)) ∧
      r = fieldsV [(natBE (wordBits ((Sha256.sha256 (wordBits ((a ++ b) ++ (c ++ d)))).take 4)) : ℕ), (natBE (wordBits ((Sha256.sha256 (wordBits ((a ++ b) ++ (c ++ d)))).drop 4)) : ℕ)] := by
    refine (okTo_unpackU32 hU hO hC hp (a := x0) (ev_fsel (cs := [x0, x1, x2, x3]) lk(e0) rfl (by simp)) rfl).trans (exists_congr fun a => and_congr_right fun ha => ?_)
    refine (okTo_unpackU32 hU hO hC hp (a := x1) (ev_fsel (cs := [x0, x1, x2, x3]) lk(e0) rfl (by simp)) rfl).trans (exists_congr fun b => and_congr_right fun hb => ?_)
    refine (okTo_unpackU32 hU hO hC hp (a := x2) (ev_fsel (cs := [x0, x1, x2, x3]) lk(e0) rfl (by simp)) rfl).trans (exists_congr fun c => and_congr_right fun hc => ?_)
    refine (okTo_unpackU32 hU hO hC hp (a := x3) (ev_fsel (cs := [x0, x1, x2, x3]) lk(e0) rfl (by simp)) rfl).trans (exists_congr fun d => and_congr_right fun hd => ?_)
    refine (okTo_set (v := wordsV (a ++ b)) ((ev_array (evS_spread (ev_ws lk(rfl) ha.1) (evS_spread (ev_ws lk(rfl) hb.1) evS_nil))).trans (by rw [wordsV_append]))).trans ?_
    refine (okTo_set (v := wordsV (c ++ d)) ((ev_array (evS_spread (ev_ws lk(rfl) hc.1) (evS_spread (ev_ws lk(rfl) hd.1) evS_nil))).trans (by rw [wordsV_append]))).trans ?_
    refine (okTo_callTo (evL_cons (ev_ws (xs := a ++ b) lk(rfl) (by simp [ha.1, hb.1])) (evL_cons (ev_ws (xs := c ++ d) lk(rfl) (by simp [hc.1, hd.1])) evL_nil)) (hS _ _ _ _ _ rfl)
      (sha512bitPadded_spec hS (by simp [ha.1, hb.1]) (by simp [hc.1, hd.1]))).trans ?_
    have hl : (Sha256.sha256 (wordBits ((a ++ b) ++ (c ++ d)))).length = 8 := blocks_length _
    generalize Sha256.sha256 (wordBits ((a ++ b) ++ (c ++ d))) = h at hl
    refine (okTo_callTo (evL_cons (ev_wslice (xs := h) lk(rfl) hl (by omega) (by omega)) evL_nil) (hU _ _ _ _ _ rfl) (packWords_spec hU (N := 4) (by simp [hl]) (by omega))).trans ?_
    refine (okTo_callTo (evL_cons (ev_wslice (xs := h) lk(rfl) hl (by omega) (by omega)) evL_nil) (hU _ _ _ _ _ rfl) (packWords_spec hU (N := 4) (by simp [hl]) (by omega))).trans ?_
    refine (okTo_nil (ev_array (evS_expr (ev_fv lk(rfl)) (evS_expr (ev_fv lk(rfl)) evS_nil)))).trans ?_
    rw [List.drop_zero, List.take_of_length_le (l := h) (i := 8) (by omega)]
    rfl
  rw [key]
  have hw : ∀ {x : ZMod p} {a : List Word}, a.length = 4 → x.val = natBE (wordBits a) → x.val < 2 ^ 128 ∧ wordBits a = bitsBE 128 x.val := by
    intro x a h1 h2
    have hl : (wordBits a).length = 128 := by rw [wordBits_length, h1]
    refine ⟨by rw [h2, ← hl]; exact natBE_lt _, ?_⟩
    rw [h2, ← hl, bitsBE_natBE]
  have hw2 : ∀ {x : ZMod p}, x.val < 2 ^ 128 → ∃ a : List Word, (a.length = 4 ∧ x.val = natBE (wordBits a)) := by
    intro x h
    obtain ⟨ns, h1, h2, h3⟩ := exists_uints 32 4 (bitsBE 128 x.val) (by simp)
    obtain ⟨ws, rfl, -⟩ := exists_words h2
    refine ⟨ws, by simpa using h1, ?_⟩
    rw [flatMap_toNat] at h3
    rw [← h3, natBE_bitsBE_of_lt h]
  constructor
  · rintro ⟨a, ⟨a1, a2⟩, b, ⟨b1, b2⟩, c, ⟨c1, c2⟩, d, ⟨d1, d2⟩, rfl⟩
    obtain ⟨a3, a4⟩ := hw a1 a2
    obtain ⟨b3, b4⟩ := hw b1 b2
    obtain ⟨c3, c4⟩ := hw c1 c2
    obtain ⟨d3, d4⟩ := hw d1 d2
    refine ⟨⟨a3, b3, c3, d3⟩, ?_⟩
    simp only [wordBits_append, a4, b4, c4, d4, List.append_assoc]
  · rintro ⟨⟨a3, b3, c3, d3⟩, rfl⟩
    obtain ⟨a, a1, a2⟩ := hw2 a3
    obtain ⟨b, b1, b2⟩ := hw2 b3
    obtain ⟨c, c1, c2⟩ := hw2 c3
    obtain ⟨d, d1, d2⟩ := hw2 d3
    refine ⟨a, ⟨a1, a2⟩, b, ⟨b1, b2⟩, c, ⟨c1, c2⟩, d, ⟨d1, d2⟩, ?_⟩
    simp only [wordBits_append, (hw a1 a2).2, (hw b1 b2).2, (hw c1 c2).2, (hw d1 d2).2, List.append_assoc]

/-! ### Signatures -/

theorem nonStrictU32_spec (hU : Imports P utils) (hO : Unpacks O) {a : ZMod p} {r : AVal (ZMod p)} :
    Calls O P nonStrictU32 [.field a] (.ok r) ↔ ∃ ws : List Word, (ws.length = 8 ∧ ∃ bl, O.unpack 254 a bl ∧ wordBits ws = false :: false :: bl) ∧ r = wordsV ws := by
  have e0 : (calleeState nonStrictU32 [.field a]).env 0 = some (.field a) := rfl
  rw [calls_okTo]
  generalize calleeState nonStrictU32 [.field a] = σ0 at e0
  refine (okTo_nonStrict hU hO e0).trans ?_
  have key : ∀ ws : List Word, ws.length = 8 → ∀ bl, wordBits ws = false :: false :: bl → (OkTo O P (σ0.set 1 (boolsV (false :: false :: bl))) [call 2 (u32s 8) kCast [bv 1 256]] (nonStrictU32 (p := p)).ret r ↔ r = wordsV ws) := by
    intro ws h1 bl h2
    have hlen : (false :: false :: bl).length = 256 := by rw [← h2, wordBits_length, h1]
    have hc := castFromBitsArr_spec (O := O) (w := .b32) (ns := ws.map BitVec.toNat) (N := 256) (K := 8) hU (fun n hn => by obtain ⟨w, -, rfl⟩ := List.mem_map.1 hn; exact w.isLt) (by simpa using h1) rfl (by norm_num)
    rw [show (UW.b32).bits = 32 from rfl, flatMap_toNat, h2, uintsV_words] at hc
    refine (okTo_callTo (evL_cons (ev_bv (x := 1) (n := 256) lk(rfl) hlen) evL_nil) (hU _ _ _ _ _ rfl) hc).trans ?_
    exact okTo_nil (ev_ws lk(rfl) h1)
  constructor
  · rintro ⟨bl, h1, h2⟩
    have hl := (hO _ _ _ h1).1
    obtain ⟨ns, n1, n2, n3⟩ := exists_uints 32 8 (false :: false :: bl) (by simp [hl])
    obtain ⟨ws, rfl, -⟩ := exists_words n2
    rw [flatMap_toNat] at n3
    have n1 : ws.length = 8 := by simpa using n1
    exact ⟨ws, ⟨n1, bl, h1, n3.symm⟩, (key ws n1 bl n3.symm).1 h2⟩
  · rintro ⟨ws, ⟨h1, bl, h2, h3⟩, h4⟩
    exact ⟨bl, h2, (key ws h1 bl h3).2 h4⟩

theorem okTo_nonStrictU32 {σ : TState p} {ss : List (SStmt (ZMod p))} {ret : TExpr (ZMod p)} {r : AVal (ZMod p)} {x : TId} {e : TExpr (ZMod p)} {a : ZMod p} (hU : Imports P utils) (hS : Imports P signatures) (hO : Unpacks O)
    (he : evalT σ.env e = .ok (.field a)) (ht : e.ty = .field) :
    OkTo O P σ (call x (u32s 8) kNonStrictU32 [e] :: ss) ret r ↔ ∃ ws : List Word, (ws.length = 8 ∧ ∃ bl, O.unpack 254 a bl ∧ wordBits ws = false :: false :: bl) ∧ OkTo O P (σ.set x (wordsV ws)) ss ret r := by
  rw [call, okTo_call (Q := fun v => ∃ ws : List Word, (ws.length = 8 ∧ ∃ bl, O.unpack 254 a bl ∧ wordBits ws = false :: false :: bl) ∧ v = wordsV ws)
    (fun w => by rw [call_here (i := nonStrictU32) [] evL_nil (evL_cons he evL_nil) (hS _ _ _ _ _ (by simp [ht, signatures])), nonStrictU32_spec hU hO])]
  constructor
  · rintro ⟨v, ⟨ws, h1, rfl⟩, h4⟩
    exact ⟨ws, h1, h4⟩
  · rintro ⟨ws, h1, h3⟩
    exact ⟨_, ⟨ws, h1, rfl⟩, h3⟩

/-- The number which a hash represents. -/
def hashNat (m : List Bool) : ℕ := natBE (wordBits (Sha256.sha256 m))

theorem verifyEddsa_spec {E : Edwards (ZMod p)} {c : Params p} (hE : Imports P ecc) (hU : Imports P utils) (hS : Imports P sha) (hG : Imports P signatures) (hO : Unpacks O) (hc : c.For E) (h8 : c.C = 8) {G : E.Pt}
    (hu : c.Gu = G.u) (hv : c.Gv = G.v) {u v s : ZMod p} {A : E.Pt} {m0 m1 : List Word} (h0 : m0.length = 8) (h1 : m1.length = 8) {r : AVal (ZMod p)} :
    Calls O P verifyEddsa [fieldsV [u, v], .field s, ptV A, wordsV m0, wordsV m1, c.val] (.ok r) ↔ ∃ R : E.Pt, R.u = u ∧ R.v = v ∧ 8 • R ≠ 0 ∧
      ∃ bR, O.unpack 254 u bR ∧ ∃ bA, O.unpack 254 A.u bA ∧ ∃ bS, O.unpack 254 s bS ∧
        r = .bool (open Classical in decide (natBE bS • G = R + hashNat ((false :: false :: bR) ++ (false :: false :: bA) ++ (wordBits m0 ++ wordBits m1)) • A)) := by
  have hi : c.infinity.length = 2 := by rw [hc.inf]; rfl
  generalize hσ : calleeState verifyEddsa [fieldsV [u, v], .field s, ptV A, wordsV m0, wordsV m1, c.val] = σ0
  have e0 : σ0.env 0 = some (fieldsV [u, v]) := by rw [← hσ]; rfl
  have e1 : σ0.env 1 = some (.field s) := by rw [← hσ]; rfl
  have e2 : σ0.env 2 = some (ptV A) := by rw [← hσ]; rfl
  have e3 : σ0.env 3 = some (wordsV m0) := by rw [← hσ]; rfl
  have e4 : σ0.env 4 = some (wordsV m1) := by rw [← hσ]; rfl
  have e5 : σ0.env 5 = some c.val := by rw [← hσ]; rfl
  rw [calls_okTo, hσ]
  have s6 : evalT σ0.env (.array .field 2 [.expr (ctxF 5 "Gu"), .expr (ctxF 5 "Gv")]) = .ok (ptV G) := by
    refine (ev_array (evS_expr (ev_Gu lk(e5) hi) (evS_expr (ev_Gv lk(e5) hi) evS_nil))).trans ?_
    rw [hu, hv]
    rfl
  refine (okTo_set s6).trans ?_
  refine (okTo_call (Q := fun w => E.On u v ∧ w = .bool true) (fun w => ?_)).trans ?_
  · rw [call_here (i := edwardsOnCurve) [] evL_nil (evL_cons (ev_pt (u := u) (v := v) lk(e0)) (evL_cons (ev_ctx (x := 5) lk(e5) hi) evL_nil)) (hE _ _ _ _ _ rfl), onCurve_spec hc]
    by_cases h : E.On u v <;> simp [h]
  have key : ∀ R : E.Pt, R.u = u → R.v = v → (OkTo O P ((σ0.set 6 (ptV G)).set 7 (.bool true)) ((verifyEddsa (p := p)).body.drop 2) (verifyEddsa (p := p)).ret r ↔ (8 • R ≠ 0 ∧
      ∃ bR, O.unpack 254 u bR ∧ ∃ bA, O.unpack 254 A.u bA ∧ ∃ bS, O.unpack 254 s bS ∧
        r = .bool (open Classical in decide (natBE bS • G = R + hashNat ((false :: false :: bR) ++ (false :: false :: bA) ++ (wordBits m0 ++ wordBits m1)) • A)))) := by
    rintro R rfl rfl
    refine (okTo_assert (b := true) (ev_ident lk(rfl) (by exact trivial))).trans ?_
    rw [and_iff_right rfl]
    refine (okTo_callTo (evL_cons (ev_pt (u := R.u) (v := R.v) lk(e0)) (evL_cons (ev_ctx (x := 5) lk(e5) hi) evL_nil)) (hE _ _ _ _ _ rfl) (orderCheck_spec hE hc h8 R)).trans ?_
    refine (okTo_assert (b := open Classical in !decide (8 • R = 0)) (ev_ident lk(rfl) (by exact trivial))).trans ?_
    refine and_congr (by simp) ?_
    have step : ∀ x : ZMod p, ∀ C : List Bool → Prop, (∃ ws : List Word, (ws.length = 8 ∧ ∃ bl, O.unpack 254 x bl ∧ wordBits ws = false :: false :: bl) ∧ C (wordBits ws)) ↔ ∃ bl, O.unpack 254 x bl ∧ C (false :: false :: bl) := by
      intro x C
      constructor
      · rintro ⟨ws, ⟨h1, bl, h2, h3⟩, h4⟩
        exact ⟨bl, h2, h3 ▸ h4⟩
      · rintro ⟨bl, h1, h2⟩
        have hl := (hO _ _ _ h1).1
        obtain ⟨ns, n1, n2, n3⟩ := exists_uints 32 8 (false :: false :: bl) (by simp [hl])
        obtain ⟨ws, rfl, -⟩ := exists_words n2
        rw [flatMap_toNat] at n3
        exact ⟨ws, ⟨by simpa using n1, bl, h1, n3.symm⟩, n3 ▸ h2⟩
    rw [← step R.u (fun b => ∃ bA, O.unpack 254 A.u bA ∧ ∃ bS, O.unpack 254 s bS ∧ r = .bool (open Classical in decide (natBE bS • G = R + hashNat (b ++ (false :: false :: bA) ++ (wordBits m0 ++ wordBits m1)) • A)))]
    refine (okTo_nonStrictU32 hU hG hO (a := R.u) (ev_pt0 (v := R.v) lk(e0)) rfl).trans (exists_congr fun wR => and_congr_right fun hR => ?_)
    rw [← step A.u (fun b => ∃ bS, O.unpack 254 s bS ∧ r = .bool (open Classical in decide (natBE bS • G = R + hashNat (wordBits wR ++ b ++ (wordBits m0 ++ wordBits m1)) • A)))]
    refine (okTo_nonStrictU32 hU hG hO (a := A.u) (ev_pt0 (v := A.v) lk(e2)) rfl).trans (exists_congr fun wA => and_congr_right fun hA => ?_)
    refine (okTo_callTo (evL_cons (ev_ws lk(rfl) hR.1) (evL_cons (ev_ws lk(rfl) hA.1) (evL_cons (ev_ws lk(e3) h0) (evL_cons (ev_ws lk(e4) h1) evL_nil)))) (hS _ _ _ _ _ rfl) (sha1024bitPadded_spec hS hR.1 hA.1 h0 h1)).trans ?_
    rw [hashNat, ← wordBits_append, ← wordBits_append, ← wordBits_append]
    have hl : (Sha256.sha256 (wordBits (wR ++ wA ++ (m0 ++ m1)))).length = 8 := blocks_length _
    generalize Sha256.sha256 (wordBits (wR ++ wA ++ (m0 ++ m1))) = h at hl
    have hcast := castToBitsArr_spec (O := O) (w := .b32) (ns := h.map BitVec.toNat) (N := 8) (K := 256) hU (fun n hn => by obtain ⟨w, -, rfl⟩ := List.mem_map.1 hn; exact w.isLt) (by simpa using hl) rfl (by norm_num)
    rw [show (UW.b32).bits = 32 from rfl, flatMap_toNat, uintsV_words] at hcast
    refine (okTo_callTo (evL_cons (ev_ws lk(rfl) hl) evL_nil) (hU _ _ _ _ _ rfl) hcast).trans ?_
    have hbl : (wordBits h).length = 256 := by rw [wordBits_length, hl]
    refine (okTo_nonStrict hU hO (a := s) lk(e1)).trans (exists_congr fun bS => and_congr_right fun hs => ?_)
    have hlen : (false :: false :: bS).length = 256 := by simp [(hO _ _ _ hs).1]
    have hnat : natBE (false :: false :: bS) = natBE bS := by simp [natBE]
    refine (okTo_callTo (evL_cons (ev_bv (x := 13) (n := 256) lk(rfl) hlen) (evL_cons (ev_pt (x := 6) lk(rfl)) (evL_cons (ev_ctx (x := 5) lk(e5) hi) evL_nil))) (hE _ _ _ _ _ rfl) (scalarMult_spec hE hc hlen G)).trans ?_
    refine (okTo_callTo (evL_cons (ev_bv (x := 12) (n := 256) lk(rfl) hbl) (evL_cons (ev_pt (x := 2) lk(e2)) (evL_cons (ev_ctx (x := 5) lk(e5) hi) evL_nil))) (hE _ _ _ _ _ rfl) (scalarMult_spec hE hc hbl A)).trans ?_
    refine (okTo_callTo (evL_cons (ev_pt (x := 0) lk(e0)) (evL_cons (ev_pt (x := 15) lk(rfl)) (evL_cons (ev_ctx (x := 5) lk(e5) hi) evL_nil))) (hE _ _ _ _ _ rfl) (add_spec hc R _)).trans ?_
    rw [hnat]
    refine (okTo_set (ev_and (ev_eq (ev_pt0 (x := 16) lk(rfl)) (ev_pt0 (x := 14) lk(rfl))) (ev_eq (ev_pt1 (x := 16) lk(rfl)) (ev_pt1 (x := 14) lk(rfl))))).trans ((okTo_nil (ev_ident lk(rfl) (by exact trivial))).trans ?_)
    suffices hb : ∀ b1 b2 : Bool, b1 = b2 → (r = .bool b1 ↔ r = .bool b2) by
      refine hb _ _ ?_
      rw [Bool.eq_iff_iff]
      generalize R + natBE (wordBits h) • A = Q1
      generalize natBE bS • G = Q2
      simp only [Bool.and_eq_true, decide_eq_true_eq, Edwards.Pt.ext_iff, AVal.field.injEq]
      exact and_congr eq_comm eq_comm
    rintro b1 _ rfl
    rfl
  constructor
  · rintro ⟨w, ⟨hon, rfl⟩, h⟩
    exact ⟨⟨u, v, hon⟩, rfl, rfl, (key ⟨u, v, hon⟩ rfl rfl).1 h⟩
  · rintro ⟨R, h2, h3, h⟩
    exact ⟨_, ⟨by rw [← h2, ← h3]; exact R.on, rfl⟩, (key R h2 h3).2 h⟩

end Zok.Typed.Std
