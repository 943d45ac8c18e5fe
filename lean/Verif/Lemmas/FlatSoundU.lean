import Verif.Lemmas.FlatSound

/-
Soundness of the flattening of unsigned integer expressions, and the theorem for all expressions.
-/

set_option linter.unusedSectionVars false
set_option linter.unusedVariables false

namespace Zok
variable {p : ℕ} {Z : Type} [Fact p.Prime]
variable {ρ : Assignment (ZMod p)} {L : ZId → Option Variable} {E pre : Prop} {Γ : Ctx} {env : ZEnv p}

open FlatExpr Fld

theorem URel.ofField {w mx n : ℕ} {f : FlatExpr (ZMod p)} (h1 : n < 2 ^ w) (h2 : (f.val ρ).val % 2 ^ w = n)
    (h3 : (f.val ρ).val ≤ mx) : URel ρ w mx n (Flt.withField f) where
  lt := h1
  field := by intro f' h; cases h; exact ⟨h2, h3⟩
  bits := by intro bs h; cases h
  hne := by intro h; cases h
  exact := by intro _ f' _ h; exact absurd rfl h

theorem URel.ofBits {w mx n : ℕ} {bs : List (FlatExpr (ZMod p))} {bl : List Bool} (h1 : BitsRel ρ bs bl)
    (h2 : bl.length = w) (h3 : natBE bl = n) (h4 : n ≤ mx) : URel ρ w mx n (Flt.withBits bs) where
  lt := by rw [← h3, ← h2]; exact natBE_lt bl
  field := by intro f' h; cases h
  bits := by intro bs' h; cases h; exact ⟨bl, h1, h2, h3⟩
  hne := fun _ => ⟨⟨bs, rfl⟩, h4⟩
  exact := by intro _ f' h; cases h

theorem UExpr.emax_le_amax (e : UExpr (ZMod p)) : e.emax ≤ e.amax := by
  unfold UExpr.emax UExpr.amax
  split
  · split
    · exact min_le_right _ _
    · exact le_rfl
  · exact le_rfl

theorem val_add_of_lt {x y : ZMod p} (h : x.val + y.val < p) : (x + y).val = x.val + y.val := by
  rw [ZMod.val_add, Nat.mod_eq_of_lt h]

theorem val_mul_of_lt {x y : ZMod p} (h : x.val * y.val < p) : (x * y).val = x.val * y.val := by
  rw [ZMod.val_mul, Nat.mod_eq_of_lt h]

/-- Subtraction modulo `2^w` of representatives. -/
theorem sub_mod_pow {A B k w : ℕ} (hk : w ≤ k) (hB : B ≤ 2 ^ k) :
    (2 ^ k + A - B) % 2 ^ w = (A % 2 ^ w + (2 ^ w - B % 2 ^ w)) % 2 ^ w := by
  have hlt : B % 2 ^ w < 2 ^ w := Nat.mod_lt _ (by positivity)
  have h1 : (2 ^ k + A - B) + B ≡ A [MOD 2 ^ w] := by
    have : (2 ^ k + A - B) + B = A + 2 ^ k := by omega
    rw [this]
    obtain ⟨c, hc⟩ := pow_dvd_pow 2 hk
    rw [hc]
    unfold Nat.ModEq
    rw [Nat.add_mul_mod_self_left]
  have h2 : (A % 2 ^ w + (2 ^ w - B % 2 ^ w)) + B ≡ A [MOD 2 ^ w] := by
    have hb : B ≡ B % 2 ^ w [MOD 2 ^ w] := (Nat.mod_modEq B _).symm
    refine (Nat.ModEq.add_left _ hb).trans ?_
    have : A % 2 ^ w + (2 ^ w - B % 2 ^ w) + B % 2 ^ w = A % 2 ^ w + 2 ^ w := by omega
    rw [this]
    unfold Nat.ModEq
    rw [Nat.add_mod_right, Nat.mod_mod]
  exact Nat.ModEq.add_right_cancel' B (h1.trans h2.symm)

theorem Sound.unwrapBits (w mx n : ℕ) (u : FlatU p) : Sound ρ L E (pre ∧ URel ρ w mx n u)
    (Flt.unwrap u.bits : FlatM p Z _) (fun bs => ∃ bl, BitsRel ρ bs bl ∧ bl.length = w ∧ natBE bl = n) :=
  (Sound.unwrap _).post fun bs h hb => h.2.bits bs hb

/-- The bits of two operands. -/
theorem Sound.twoBits {β : Type} {l r : UExpr (ZMod p)} (hl : SndU Z env L ρ l) (hr : SndU Z env L ρ r)
    (h1 : evalU env l = .error .divZero → E) (h2 : ∀ x, evalU env l = .ok x → evalU env r = .error .divZero → E)
    {k : List (FlatExpr (ZMod p)) → List (FlatExpr (ZMod p)) → FlatM p Z β} {R : β → Prop}
    (hk : ∀ as bs al bl, Sound ρ L E ((evalU env l = .ok (natBE al) ∧ evalU env r = .ok (natBE bl) ∧
      al.length = l.width ∧ bl.length = r.width) ∧ BitsRel ρ as al ∧ BitsRel ρ bs bl) (k as bs) R) :
    Sound ρ L E True (do
      let a ← Flt.flattenU l
      let b ← Flt.flattenU r
      let as ← Flt.unwrap a.bits
      let bs ← Flt.unwrap b.bits
      k as bs) R := by
  refine Sound.bind_ex (hl.escape fun _ => h1) fun a x => Sound.bind_ex (hr.escape ?_) fun b y =>
    Sound.bind_ex ((Sound.unwrapBits l.width l.emax x a (pre := True)).pre_of fun h => ⟨trivial, h.1.2.2.1⟩) fun as al =>
    Sound.bind_ex ((Sound.unwrapBits r.width r.emax y b (pre := True)).pre_of fun h => ⟨trivial, h.1.2.2.1⟩) fun bs bl =>
    (hk as bs al bl).pre_of ?_
  · rintro ⟨_, h, _⟩ h'; exact h2 x h h'
  · rintro ⟨⟨⟨⟨_, h1, _⟩, h2, _⟩, h3, h4, h5⟩, h6, h7, h8⟩
    exact ⟨⟨by rw [h5]; exact h1, by rw [h8]; exact h2, h4, h7⟩, h3, h6⟩

theorem natBE_xor {al bl : List Bool} (h : al.length = bl.length) :
    natBE (List.zipWith (fun x y => x ^^ y) al bl) = natBE al ^^^ natBE bl :=
  natBE_zipWith _ _ (fun i a b => Nat.testBit_xor a b i) (fun _ _ _ ha hb => Nat.xor_lt_two_pow ha hb) h

theorem natBE_and {al bl : List Bool} (h : al.length = bl.length) :
    natBE (List.zipWith (fun x y => x && y) al bl) = natBE al &&& natBE bl :=
  natBE_zipWith _ _ (fun i a b => Nat.testBit_and a b i) (fun _ _ _ ha hb => Nat.and_lt_two_pow _ hb) h

theorem natBE_or {al bl : List Bool} (h : al.length = bl.length) :
    natBE (List.zipWith (fun x y => x || y) al bl) = natBE al ||| natBE bl :=
  natBE_zipWith _ _ (fun i a b => Nat.testBit_or a b i) (fun _ _ _ ha hb => Nat.or_lt_two_pow ha hb) h

theorem natBE_ch {al bl cl : List Bool} (h : al.length = bl.length) (h' : al.length = cl.length) :
    natBE ((al.zip (bl.zip cl)).map (fun t => Sound.chB t.1 t.2.1 t.2.2)) =
      (natBE al &&& natBE bl) ^^^ ((2 ^ al.length - 1 - natBE al) &&& natBE cl) := by
  have e : (al.zip (bl.zip cl)).map (fun t => Sound.chB t.1 t.2.1 t.2.2) =
      List.zipWith (fun x y => x ^^ y) (List.zipWith (fun x y => x && y) al bl)
        (List.zipWith (fun x y => x && y) (al.map (fun b => !b)) cl) := by
    induction al generalizing bl cl with
    | nil => simp
    | cons a al ih =>
      cases bl with
      | nil => simp at h
      | cons b bl =>
        cases cl with
        | nil => simp at h'
        | cons c cl =>
          simp only [List.zip_cons_cons, List.map_cons, List.zipWith_cons_cons]
          rw [ih (by simpa using h) (by simpa using h')]
          simp [Sound.chB]
  rw [e, natBE_xor (by simp; omega), natBE_and h, natBE_and (by simpa using h'), natBE_map_not]

theorem natBE_maj {al bl cl : List Bool} (h : al.length = bl.length) (h' : al.length = cl.length) :
    natBE ((al.zip (bl.zip cl)).map (fun t => Sound.majB t.1 t.2.1 t.2.2)) =
      ((natBE al &&& natBE bl) ^^^ (natBE al &&& natBE cl)) ^^^ (natBE bl &&& natBE cl) := by
  have e : (al.zip (bl.zip cl)).map (fun t => Sound.majB t.1 t.2.1 t.2.2) =
      List.zipWith (fun x y => x ^^ y) (List.zipWith (fun x y => x ^^ y) (List.zipWith (fun x y => x && y) al bl)
        (List.zipWith (fun x y => x && y) al cl)) (List.zipWith (fun x y => x && y) bl cl) := by
    induction al generalizing bl cl with
    | nil => simp
    | cons a al ih =>
      cases bl with
      | nil => simp at h
      | cons b bl =>
        cases cl with
        | nil => simp at h'
        | cons c cl =>
          simp only [List.zip_cons_cons, List.map_cons, List.zipWith_cons_cons]
          rw [ih (by simpa using h) (by simpa using h')]
          simp [Sound.majB]
  rw [e, natBE_xor (by simp; omega), natBE_xor (by simp; omega), natBE_and h, natBE_and h', natBE_and (by omega)]

/-! ### The cases -/

section cases
variable {w mx : ℕ}

theorem sndUI_value (hw : w < requiredBits p) {n : ℕ} (h1 : n < 2 ^ w) (h2 : n ≤ mx) :
    SndUI Z env L ρ w mx (.value n) := by
  unfold SndUI; rw [Flt.flattenUI]
  refine Sound.pure fun _ => ⟨n, by rw [evalUI], ?_⟩
  have hv : ((n : ℕ) : ZMod p).val = n := val_natCast_of_lt (lt_of_lt_of_le h1 (pow_le_p hw))
  exact URel.ofField h1 (by simp only [FlatExpr.val, hv]; exact Nat.mod_eq_of_lt h1)
    (by simp only [FlatExpr.val, hv]; exact h2)

theorem sndUI_ident (hw : w < requiredBits p) (henv : EnvOk Γ env L ρ) {x : ZId} {k : ℕ}
    (h : Γ x = some (.uint w k)) (hk : k ≤ mx) : SndUI Z env L ρ w mx (.ident x) := by
  unfold SndUI; rw [Flt.flattenUI]
  refine Sound.bind (Sound.lookup x) fun v => Sound.bind (Sound.getCache _) fun c => ?_
  have key : L x = some v → ∃ n, evalUI env w (.ident x) = .ok n ∧ n < 2 ^ w ∧ (ρ v).val % 2 ^ w = n ∧
      (ρ v).val ≤ mx := by
    intro hv
    obtain ⟨y, hy, n, hn, h1, h2, h3⟩ := henv x _ h
    rw [hv] at hy; cases hy
    exact ⟨n, by rw [evalUI, hn]; simp, h1, h2, le_trans h3 hk⟩
  cases c with
  | none =>
    refine Sound.pure ?_
    rintro ⟨⟨_, hv⟩, _⟩
    obtain ⟨n, h0, h1, h2, h3⟩ := key hv
    exact ⟨n, h0, URel.ofField h1 h2 h3⟩
  | some c =>
    refine Sound.bind (Sound.assert _) fun _ => Sound.pure ?_
    rintro ⟨⟨⟨_, hv⟩, hc⟩, hlen⟩
    obtain ⟨n, h0, h1, h2, h3⟩ := key hv
    have hlen' : c.bits.length = w := by simpa using hlen
    obtain ⟨_, bl, N, hb, hN, hm, he, hp⟩ := hc c rfl
    have hNv : N = (ρ v).val := by
      rcases hp with hp | ⟨hp, _⟩
      · exact (val_eq_of_lt hp hN).symm
      · omega
    refine ⟨n, h0, h1, ?_, ?_, ?_, ?_⟩
    · intro f hf; cases hf; exact ⟨h2, h3⟩
    · intro bs hbs; cases hbs
      refine ⟨bl, hb, by rw [← hb.length]; exact hlen', ?_⟩
      rw [hm, hlen', hNv, h2]
    · intro h; cases h
    · intro hex f hf _; cases hf
      simp only [FlatExpr.val]
      rw [← hNv, ← he hex, hm, hlen', hNv, h2]

theorem sndUI_add (hmx : mx < 2 ^ (requiredBits p - 1)) (hw : w < requiredBits p) {l r : UExpr (ZMod p)}
    (hl : SndU Z env L ρ l) (hr : SndU Z env L ρ r) (hwl : l.width = w) (hwr : r.width = w)
    (hm : l.emax + r.emax ≤ mx) : SndUI Z env L ρ w mx (.add l r) := by
  unfold SndUI; rw [Flt.flattenUI]
  refine Sound.bind (Sound.twoFields hl hr (by omega) (by omega) (fun h => by rw [evalUI, h]; rfl) fun n h h' => by
    rw [evalUI, h, h']; rfl) fun t => Sound.pure ?_
  rintro ⟨_, n, m, hn, hm', n1, m1, n2, n3, m2, m3⟩
  rw [hwl] at n1 n2; rw [hwr] at m1 m2
  refine ⟨(n + m) % 2 ^ w, by rw [evalUI, hn, hm']; rfl, ?_⟩
  have hpp := two_pow_le (p := p)
  have hv : (t.1.val ρ + t.2.val ρ).val = (t.1.val ρ).val + (t.2.val ρ).val := val_add_of_lt (by omega)
  refine URel.ofField (Nat.mod_lt _ (by positivity)) ?_ ?_
  · simp only [FlatExpr.val]; rw [hv, Nat.add_mod, n2, m2]
  · simp only [FlatExpr.val]; rw [hv]; omega

theorem sndUI_sub (hmx : mx < 2 ^ (requiredBits p - 1)) (hw : w < requiredBits p) {l r : UExpr (ZMod p)}
    (hl : SndU Z env L ρ l) (hr : SndU Z env L ρ r) (hwl : l.width = w) (hwr : r.width = w)
    (hm : l.emax + 2 ^ (max (Fld.bits (p := p) ((r.info.map UMeta.max).getD 0)) w) ≤ mx) :
    SndUI Z env L ρ w mx (.sub l r) := by
  unfold SndUI; rw [Flt.flattenUI]
  refine Sound.bind (Sound.unwrap _) fun mr => Sound.bind ((Sound.twoFields hl hr (by omega) (by omega)
    (fun h => by rw [evalUI, h]; rfl) fun n h h' => by rw [evalUI, h, h']; rfl).pre_of fun _ => trivial) fun t =>
    Sound.pure ?_
  rintro ⟨⟨_, hmr⟩, n, m, hn, hm', n1, m1, n2, n3, m2, m3⟩
  rw [hwl] at n1 n2; rw [hwr] at m1 m2
  rw [hmr] at hm
  simp only [Option.map_some, Option.getD_some] at hm
  refine ⟨(n + (2 ^ w - m)) % 2 ^ w, by rw [evalUI, hn, hm']; rfl, ?_⟩
  have hpp := two_pow_le (p := p)
  set k := max (Fld.bits mr.max) w with hk
  have ham : r.emax ≤ mr.max.val := by
    refine le_trans r.emax_le_amax (le_of_eq ?_)
    unfold UExpr.amax; rw [hmr]
  have hB : (t.2.val ρ).val ≤ 2 ^ k := by
    have h1 := val_lt_bits mr.max
    have h2 : 2 ^ Fld.bits mr.max ≤ 2 ^ k := Nat.pow_le_pow_right (by norm_num) (le_max_left _ _)
    omega
  have hv : (((2 : ZMod p) ^ k) + (t.1.val ρ - t.2.val ρ)).val = 2 ^ k + (t.1.val ρ).val - (t.2.val ρ).val := by
    have : ((2 : ZMod p) ^ k) + (t.1.val ρ - t.2.val ρ) =
        ((2 ^ k + (t.1.val ρ).val - (t.2.val ρ).val : ℕ) : ZMod p) := by
      rw [Nat.cast_sub (by omega), Nat.cast_add, cast_val, cast_val]; push_cast; ring
    rw [this, val_natCast_of_lt (by omega)]
  refine URel.ofField (Nat.mod_lt _ (by positivity)) ?_ ?_
  · simp only [FlatExpr.val]; rw [hv, sub_mod_pow (le_max_right _ _) hB, n2, m2]
  · simp only [FlatExpr.val]; rw [hv]; omega

theorem sndUI_mult (hmx : mx < 2 ^ (requiredBits p - 1)) (hw : w < requiredBits p) {l r : UExpr (ZMod p)}
    (hl : SndU Z env L ρ l) (hr : SndU Z env L ρ r) (hwl : l.width = w) (hwr : r.width = w)
    (hm : l.emax * r.emax ≤ mx) : SndUI Z env L ρ w mx (.mult l r) := by
  unfold SndUI; rw [Flt.flattenUI]
  refine Sound.bind (Sound.twoFields hl hr (by omega) (by omega) (fun h => by rw [evalUI, h]; rfl) fun n h h' => by
    rw [evalUI, h, h']; rfl) fun t => Sound.bind (Sound.newDef _) fun v => Sound.pure ?_
  rintro ⟨⟨_, n, m, hn, hm', n1, m1, n2, n3, m2, m3⟩, hv⟩
  rw [hwl] at n1 n2; rw [hwr] at m1 m2
  refine ⟨(n * m) % 2 ^ w, by rw [evalUI, hn, hm']; rfl, ?_⟩
  have hpp := two_pow_le (p := p)
  have hle : (t.1.val ρ).val * (t.2.val ρ).val ≤ l.emax * r.emax := Nat.mul_le_mul n3 m3
  have hv' : (ρ v).val = (t.1.val ρ).val * (t.2.val ρ).val := by
    rw [hv]; exact val_mul_of_lt (by omega)
  refine URel.ofField (Nat.mod_lt _ (by positivity)) ?_ ?_
  · simp only [FlatExpr.val]; rw [hv', Nat.mul_mod, n2, m2]
  · simp only [FlatExpr.val]; rw [hv']; omega

/-- The operands of a division. -/
theorem Sound.euclidU (hp : 2 < p) (hrb : 2 * w + 2 ≤ requiredBits p) {l r : UExpr (ZMod p)}
    (hl : SndU Z env L ρ l) (hr : SndU Z env L ρ r) (hwl : l.width = w) (hwr : r.width = w) (rl : l.Reduced)
    (rr : r.Reduced) (h1 : evalU env l = .error .divZero → E)
    (h2 : ∀ x, evalU env l = .ok x → evalU env r = .error .divZero → E) {β : Type} {k : Variable × Variable → FlatM p Z β}
    {R : β → Prop} (hk : ∀ t, Sound ρ L E (∃ n m, evalU env l = .ok n ∧ evalU env r = .ok m ∧ m ≠ 0 ∧ n < 2 ^ w ∧
      m < 2 ^ w ∧ (ρ t.1).val = n / m ∧ (ρ t.2).val = n % m) (k t) R) :
    Sound ρ L E True (do
      let a ← Flt.flattenU l
      let a ← Flt.getField a
      let b ← Flt.flattenU r
      let b ← Flt.getField b
      let t ← Flt.euclid w a b
      k t) R := by
  rw [Sound.uField_bind]
  refine Sound.bind ((Sound.uField hl (by omega)).escape fun _ => h1) fun a => ?_
  rw [Sound.uField_bind]
  refine Sound.bind ((Sound.uField hr (by omega)).escape ?_) fun b =>
    Sound.bind ((Sound.euclid hp w a b hrb (pre := True)).pre_of ?_) fun t => (hk t).pre_of ?_
  · rintro ⟨_, n, hn, _⟩ h; exact h2 n hn h
  · rintro ⟨⟨_, n, hn, n1, _, _, n2⟩, m, hm, m1, _, _, m2⟩
    rw [n2 rl, m2 rr]
    exact ⟨trivial, hwl ▸ n1, hwr ▸ m1⟩
  · rintro ⟨⟨⟨_, n, hn, n1, _, _, n2⟩, m, hm, m1, _, _, m2⟩, h3, h4, h5⟩
    rw [n2 rl, m2 rr] at h4 h5
    rw [m2 rr] at h3
    exact ⟨n, m, hn, hm, h3, hwl ▸ n1, hwr ▸ m1, h4, h5⟩

theorem sndUI_div (hp : 2 < p) (hrb : 2 * w + 2 ≤ requiredBits p) {l r : UExpr (ZMod p)}
    (hl : SndU Z env L ρ l) (hr : SndU Z env L ρ r) (hwl : l.width = w) (hwr : r.width = w) (rl : l.Reduced)
    (rr : r.Reduced) (hm : 2 ^ w - 1 ≤ mx) : SndUI Z env L ρ w mx (.div l r) := by
  unfold SndUI; rw [Flt.flattenUI]
  refine Sound.euclidU hp hrb hl hr hwl hwr rl rr (fun h => by rw [evalUI, h]; rfl) (fun n h h' => by
    rw [evalUI, h, h']; rfl) fun t => Sound.pure ?_
  rintro ⟨n, m, hn, hm', h0, hn1, _, h1, _⟩
  have hlt : n / m < 2 ^ w := lt_of_le_of_lt (Nat.div_le_self n m) hn1
  refine ⟨n / m, by rw [evalUI, hn, hm']; simp [exc_ok, h0], URel.ofField hlt ?_ ?_⟩
  · simp only [FlatExpr.val]; rw [h1, Nat.mod_eq_of_lt hlt]
  · simp only [FlatExpr.val]; rw [h1]; omega

theorem sndUI_rem (hp : 2 < p) (hrb : 2 * w + 2 ≤ requiredBits p) {l r : UExpr (ZMod p)}
    (hl : SndU Z env L ρ l) (hr : SndU Z env L ρ r) (hwl : l.width = w) (hwr : r.width = w) (rl : l.Reduced)
    (rr : r.Reduced) (hm : 2 ^ w - 1 ≤ mx) : SndUI Z env L ρ w mx (.rem l r) := by
  unfold SndUI; rw [Flt.flattenUI]
  refine Sound.euclidU hp hrb hl hr hwl hwr rl rr (fun h => by rw [evalUI, h]; rfl) (fun n h h' => by
    rw [evalUI, h, h']; rfl) fun t => Sound.pure ?_
  rintro ⟨n, m, hn, hm', h0, hn1, hm1, _, h1⟩
  have hlt : n % m < 2 ^ w := lt_trans (Nat.mod_lt n (Nat.pos_of_ne_zero h0)) hm1
  refine ⟨n % m, by rw [evalUI, hn, hm']; simp [exc_ok, h0], URel.ofField hlt ?_ ?_⟩
  · simp only [FlatExpr.val]; rw [h1, Nat.mod_eq_of_lt hlt]
  · simp only [FlatExpr.val]; rw [h1]; omega

theorem sndUI_not {e : UExpr (ZMod p)} (h : SndU Z env L ρ e) (hwe : e.width = w) (hm : 2 ^ w - 1 ≤ mx) :
    SndUI Z env L ρ w mx (.not e) := by
  unfold SndUI; rw [Flt.flattenUI]
  refine Sound.bind_ex (h.escape fun _ h => by rw [evalUI, h]; rfl) fun u n =>
    Sound.bind_ex ((Sound.unwrapBits e.width e.emax n u (pre := True)).pre_of fun h => ⟨trivial, h.2.2.1⟩) fun bs bl =>
    Sound.bind (Sound.assert _) fun _ =>
    Sound.bind ((Sound.mapBits (fun b => !b) (fun a x => (Sound.notBit a x (pre := True)).pre_of fun h => ⟨trivial, h⟩)
      bs bl (pre := True)).pre_of fun h => ⟨trivial, h.1.2.1⟩) fun res => Sound.pure ?_
  rintro ⟨⟨⟨⟨_, h1, _⟩, h2, h3, h4⟩, _⟩, h5⟩
  refine ⟨2 ^ w - 1 - n, by rw [evalUI, h1]; rfl, URel.ofBits h5 (by rw [List.length_map, h3, hwe]) ?_ (by omega)⟩
  rw [natBE_map_not, h3, h4, hwe]

theorem sndUI_leftShift {e : UExpr (ZMod p)} (h : SndU Z env L ρ e) (hwe : e.width = w) (hr : e.Reduced)
    {wb k : ℕ} {mb : Option (UMeta (ZMod p))} (hk : k < 2 ^ 32)
    (hm : ∀ n, n < 2 ^ w → n ≤ e.amax → (n * 2 ^ k) % 2 ^ w ≤ mx) :
    SndUI Z env L ρ w mx (.leftShift e (.mk wb mb (.value k))) := by
  unfold SndUI; rw [Flt.flattenUI]
  simp only [UExpr.inner]
  refine Sound.bind_ex (h.escape fun _ h => by rw [evalUI, h]; rfl) fun u n =>
    Sound.bind_ex ((Sound.unwrapBits e.width e.emax n u (pre := True)).pre_of fun h => ⟨trivial, h.2.2.1⟩) fun bs bl =>
    Sound.bind (Sound.assert _) fun _ => Sound.pure ?_
  rintro ⟨⟨⟨_, h1, hu, hred⟩, h2, h3, h4⟩, _⟩
  rw [Nat.mod_eq_of_lt hk]
  rw [hwe] at h3
  refine ⟨(n * 2 ^ k) % 2 ^ w, by rw [evalUI, h1]; simp [exc_ok, evalU, evalUI],
    URel.ofBits ((h2.drop k).append (BitsRel.zeros (min k w))) ?_ ?_ ?_⟩
  · rw [List.length_append, List.length_drop, List.length_replicate]; omega
  · rw [← h3, natBE_shl, h4]
  · refine hm n (hwe ▸ hu.lt) ?_
    obtain ⟨f, hf, hv⟩ := (hred hr).field
    rw [← hv]
    exact le_trans (hu.field f hf).2 e.emax_le_amax

theorem sndUI_rightShift {e : UExpr (ZMod p)} (h : SndU Z env L ρ e) (hwe : e.width = w) (hr : e.Reduced)
    {wb k : ℕ} {mb : Option (UMeta (ZMod p))} (hk : k < 2 ^ 32)
    (hm : ∀ n, n < 2 ^ w → n ≤ e.amax → n / 2 ^ k ≤ mx) :
    SndUI Z env L ρ w mx (.rightShift e (.mk wb mb (.value k))) := by
  unfold SndUI; rw [Flt.flattenUI]
  simp only [UExpr.inner]
  refine Sound.bind_ex (h.escape fun _ h => by rw [evalUI, h]; rfl) fun u n =>
    Sound.bind_ex ((Sound.unwrapBits e.width e.emax n u (pre := True)).pre_of fun h => ⟨trivial, h.2.2.1⟩) fun bs bl =>
    Sound.bind (Sound.assert _) fun _ => Sound.pure ?_
  rintro ⟨⟨⟨_, h1, hu, hred⟩, h2, h3, h4⟩, _⟩
  rw [Nat.mod_eq_of_lt hk]
  rw [hwe] at h3
  refine ⟨n / 2 ^ k, by rw [evalUI, h1]; simp [exc_ok, evalU, evalUI],
    URel.ofBits ((BitsRel.zeros (min k w)).append (h2.take (w - min k w))) ?_ ?_ ?_⟩
  · rw [List.length_append, List.length_take, List.length_replicate]; omega
  · rw [← h3, natBE_shr, h4]
  · refine hm n (hwe ▸ hu.lt) ?_
    obtain ⟨f, hf, hv⟩ := (hred hr).field
    rw [← hv]
    exact le_trans (hu.field f hf).2 e.emax_le_amax

theorem sndUI_cond (hw : w < requiredBits p) {c : BExpr (ZMod p)} {t e : UExpr (ZMod p)} (hc : SndB Z env L ρ c)
    (ht : SndU Z env L ρ t) (he : SndU Z env L ρ e) (hwt : t.width = w) (hwe : e.width = w) (hmt : t.emax ≤ mx)
    (hme : e.emax ≤ mx) : SndUI Z env L ρ w mx (.cond c t e) := by
  unfold SndUI; rw [Flt.flattenUI]
  refine (Sound.conditional (hc.escape fun _ h => by rw [evalUI, h]; rfl)
    (fun x => (Sound.uField ht (by omega)).escape ?_) (fun x y => (Sound.uField he (by omega)).escape ?_)).post ?_
  · rintro ⟨_, b, hb, _⟩ h; rw [evalUI, hb, h]; rfl
  · rintro ⟨⟨_, b, hb, _⟩, n, h1, _⟩ h; rw [evalUI, hb, h1, h]; rfl
  · rintro u _ ⟨v, x, y, z, rfl, ⟨b, hb, hx⟩, ⟨n, hn, n1, n2, n3, _⟩, ⟨m, hm, m1, m2, m3, _⟩, hv⟩
    rw [hwt] at n1 n2; rw [hwe] at m1 m2
    refine ⟨if b then n else m, by rw [evalUI, hb, hn, hm]; rfl, ?_⟩
    cases b
    · have : ρ v = z.val ρ := by rw [hv, hx]; simp [boolF]
      exact URel.ofField m1 (by simp only [FlatExpr.val]; rw [this]; exact m2)
        (by simp only [FlatExpr.val]; rw [this]; exact le_trans m3 hme)
    · have : ρ v = y.val ρ := by rw [hv, hx]; simp [boolF]
      exact URel.ofField n1 (by simp only [FlatExpr.val]; rw [this]; exact n2)
        (by simp only [FlatExpr.val]; rw [this]; exact le_trans n3 hmt)

theorem sndUI_select (hp : 2 < p) (hw : w < requiredBits p) {es : List (UExpr (ZMod p))} {i : UExpr (ZMod p)}
    (hes : ∀ e ∈ es, SndU Z env L ρ e) (hok : ∀ e ∈ es, e.width = w ∧ e.emax ≤ mx)
    (hi : SndU Z env L ρ i) (hwi : i.width = 32) (hrb : 66 ≤ requiredBits p) (hr : i.Reduced) (hl : es.length ≤ 2 ^ 32) :
    SndUI Z env L ρ w mx (.select es i) := by
  unfold SndUI; rw [Flt.flattenUI]
  simp only [flattenSelU_eq]
  refine ((Sound.select _ (evalU env)
    (fun a v => v < 2 ^ w ∧ (a.val ρ).val % 2 ^ w = v ∧ (a.val ρ).val ≤ mx)
    (Flt.selCond i.info (Flt.flattenU i)) (evalU env i) (fun a b v h h' => h ▸ h') es
    (fun e he => (Sound.uField (hes e he) (by have := (hok e he).1; omega)).post ?_)
    (Sound.selCond hp hi hwi hrb hr) hl).esc ?_).post ?_
  · rintro f _ ⟨n, h1, h2, h3, h4, _⟩
    obtain ⟨h5, h6⟩ := hok e he
    exact ⟨n, h1, h5 ▸ h2, h5 ▸ h3, le_trans h4 h6⟩
  · intro _ h
    rw [evalUI]; simp only [evalUs_eq]; exact h
  · rintro u _ ⟨g, rfl, hg, v, hv, h1, h2, h3⟩
    refine ⟨v, ?_, URel.ofField h1 h2 h3⟩
    rw [evalUI]; simp only [evalUs_eq]; rw [hv]

theorem sndUI_and {l r : UExpr (ZMod p)}
    (hl : SndU Z env L ρ l) (hr : SndU Z env L ρ r) (hwl : l.width = w) (hwr : r.width = w)
    (hm : 2 ^ w - 1 ≤ mx) : SndUI Z env L ρ w mx (.and l r) := by
  unfold SndUI; rw [Flt.flattenUI]
  unfold Flt.bitwise
  refine Sound.twoBits hl hr (fun h => by rw [evalUI, h]; rfl) (fun x h h' => by rw [evalUI, h, h']; rfl)
    fun as bs al bl => Sound.bind (Sound.assert _) fun _ => Sound.bind (Sound.assert _) fun _ =>
    Sound.bind ((Sound.zipBits (fun x y => x && y) (fun a b x y => (Sound.andBit a b x y (pre := True)).pre_of
      fun h => ⟨trivial, h⟩) as bs al bl (pre := True)).pre_of fun h => ⟨trivial, h.1.1.2⟩) fun res => Sound.pure ?_
  rintro ⟨⟨⟨⟨⟨h1, h2, h3, h4⟩, _⟩, _⟩, _⟩, h5⟩
  have hlen : (List.zipWith (fun x y => x && y) al bl).length = w := by rw [List.length_zipWith]; omega
  have hlt := natBE_lt (List.zipWith (fun x y => x && y) al bl)
  rw [hlen] at hlt
  refine ⟨natBE al &&& natBE bl, by rw [evalUI, h1, h2]; rfl, URel.ofBits h5 hlen (natBE_and (by omega)) ?_⟩
  rw [← natBE_and (by omega)]; omega

theorem sndUI_or {l r : UExpr (ZMod p)}
    (hl : SndU Z env L ρ l) (hr : SndU Z env L ρ r) (hwl : l.width = w) (hwr : r.width = w)
    (hm : 2 ^ w - 1 ≤ mx) : SndUI Z env L ρ w mx (.or l r) := by
  unfold SndUI; rw [Flt.flattenUI]
  unfold Flt.bitwise
  refine Sound.twoBits hl hr (fun h => by rw [evalUI, h]; rfl) (fun x h h' => by rw [evalUI, h, h']; rfl)
    fun as bs al bl => Sound.bind (Sound.assert _) fun _ => Sound.bind (Sound.assert _) fun _ =>
    Sound.bind ((Sound.zipBits (fun x y => x || y) (fun a b x y => (Sound.orBit a b x y (pre := True)).pre_of
      fun h => ⟨trivial, h⟩) as bs al bl (pre := True)).pre_of fun h => ⟨trivial, h.1.1.2⟩) fun res => Sound.pure ?_
  rintro ⟨⟨⟨⟨⟨h1, h2, h3, h4⟩, _⟩, _⟩, _⟩, h5⟩
  have hlen : (List.zipWith (fun x y => x || y) al bl).length = w := by rw [List.length_zipWith]; omega
  have hlt := natBE_lt (List.zipWith (fun x y => x || y) al bl)
  rw [hlen] at hlt
  refine ⟨natBE al ||| natBE bl, by rw [evalUI, h1, h2]; rfl, URel.ofBits h5 hlen (natBE_or (by omega)) ?_⟩
  rw [← natBE_or (by omega)]; omega

theorem Sound.defaultXor {l r : UExpr (ZMod p)}
    (hl : SndU Z env L ρ l) (hr : SndU Z env L ρ r) (hwl : l.width = w) (hwr : r.width = w)
    (hm : 2 ^ w - 1 ≤ mx) : Sound ρ L (evalUI env w (.xor l r) = .error .divZero) True
      (Flt.defaultXor (Flt.flattenU l) (Flt.flattenU r) : FlatM p Z _)
      (fun u => ∃ n, evalUI env w (.xor l r) = .ok n ∧ URel ρ w mx n u) := by
  unfold Flt.defaultXor
  refine Sound.twoBits hl hr (fun h => by rw [evalUI, h]; rfl) (fun x h h' => by rw [evalUI, h, h']; rfl)
    fun as bs al bl =>
    Sound.bind ((Sound.zipBits (fun x y => x ^^ y) (fun a b x y => (Sound.xorBit a b x y (pre := True)).pre_of
      fun h => ⟨trivial, h⟩) as bs al bl (pre := True)).pre_of fun h => ⟨trivial, h.2⟩) fun res => Sound.pure ?_
  rintro ⟨⟨⟨h1, h2, h3, h4⟩, _⟩, h5⟩
  have hlen : (List.zipWith (fun x y => x ^^ y) al bl).length = w := by rw [List.length_zipWith]; omega
  have hlt := natBE_lt (List.zipWith (fun x y => x ^^ y) al bl)
  rw [hlen] at hlt
  refine ⟨natBE al ^^^ natBE bl, by rw [evalUI, h1, h2]; rfl, URel.ofBits h5 hlen (natBE_xor (by omega)) ?_⟩
  rw [← natBE_xor (by omega)]; omega

theorem Sound.threeBits {a b c : UExpr (ZMod p)}
    {f : FlatExpr (ZMod p) → FlatExpr (ZMod p) → FlatExpr (ZMod p) → FlatM p Z (FlatExpr (ZMod p))}
    {g : Bool → Bool → Bool → Bool}
    (ha : SndU Z env L ρ a) (hb : SndU Z env L ρ b) (hc : SndU Z env L ρ c)
    (hwa : a.width = w) (hwb : b.width = w) (hwc : c.width = w)
    (hf : ∀ a b c x y z, Sound ρ L E (a.val ρ = boolF x ∧ b.val ρ = boolF y ∧ c.val ρ = boolF z) (f a b c)
      (fun r => r.val ρ = boolF (g x y z)))
    (h1 : evalU env a = .error .divZero → E) (h2 : ∀ x, evalU env a = .ok x → evalU env b = .error .divZero → E)
    (h3 : ∀ x y, evalU env a = .ok x → evalU env b = .ok y → evalU env c = .error .divZero → E) :
    Sound ρ L E True (Flt.threeBits f (Flt.flattenU a) (Flt.flattenU b) (Flt.flattenU c))
      (fun u => ∃ al bl cl, evalU env a = .ok (natBE al) ∧ evalU env b = .ok (natBE bl) ∧ evalU env c = .ok (natBE cl) ∧
        al.length = w ∧ bl.length = w ∧ cl.length = w ∧ ∃ bs, u = Flt.withBits bs ∧
          BitsRel ρ bs ((al.zip (bl.zip cl)).map (fun t => g t.1 t.2.1 t.2.2))) := by
  unfold Flt.threeBits
  refine Sound.bind_ex (ha.escape fun _ => h1) fun ua x => Sound.bind_ex (hb.escape ?_) fun ub y =>
    Sound.bind_ex (hc.escape ?_) fun uc z =>
    Sound.bind_ex ((Sound.unwrapBits a.width a.emax x ua (pre := True)).pre_of fun h => ⟨trivial, h.1.1.2.2.1⟩) fun as al =>
    Sound.bind_ex ((Sound.unwrapBits b.width b.emax y ub (pre := True)).pre_of fun h => ⟨trivial, h.1.1.2.2.1⟩) fun bs bl =>
    Sound.bind_ex ((Sound.unwrapBits c.width c.emax z uc (pre := True)).pre_of fun h => ⟨trivial, h.1.1.2.2.1⟩) fun cs cl =>
    Sound.bind ((Sound.zipBits3 g hf as bs cs al bl cl (pre := True)).pre_of
      fun h => ⟨trivial, h.1.1.2.1, h.1.2.1, h.2.1⟩) fun res => Sound.pure ?_
  · rintro ⟨_, h, _⟩ h'; exact h2 x h h'
  · rintro ⟨⟨_, h, _⟩, h'', _⟩ h'; exact h3 x y h h'' h'
  · rintro ⟨⟨⟨⟨⟨⟨⟨_, e1, _⟩, e2, _⟩, e3, _⟩, a1, a2, a3⟩, b1, b2, b3⟩, c1, c2, c3⟩, hr⟩
    exact ⟨al, bl, cl, by rw [a3, e1], by rw [b3, e2], by rw [c3, e3], a2.trans hwa, b2.trans hwb, c2.trans hwc, res, rfl, hr⟩

theorem sndUI_xor {l r : UExpr (ZMod p)}
    (ih : ∀ e : UExpr (ZMod p), sizeOf e ≤ sizeOf l + sizeOf r → OkU Γ e → SndU Z env L ρ e)
    (hl : OkU Γ l) (hr : OkU Γ r) (hwl : l.width = w) (hwr : r.width = w)
    (hm : 2 ^ w - 1 ≤ mx) : SndUI Z env L ρ w mx (.xor l r) := by
  unfold SndUI
  refine flattenUI_xor_cases w l r (fun m => Sound ρ L (evalUI env w (.xor l r) = .error .divZero) True m
    (fun u => ∃ n, evalUI env w (.xor l r) = .ok n ∧ URel ρ w mx n u)) ?_ ?_ ?_
    (Sound.defaultXor (ih l (by omega) hl) (ih r (by omega) hr) hwl hwr hm)
  · intro o m h
    exact Sound.bind (Sound.unwrap o) fun _ => h.pre_of fun _ => trivial
  · rintro wl ml a b wr mr wa ma c rfl rfl
    simp only [UExpr.width] at hwl hwr
    subst hwl hwr
    simp only [OkU, OkUI] at hl hr
    obtain ⟨_, _, _, ha, hb, hwa, hwb, _⟩ := hl
    obtain ⟨_, _, _, ⟨_, _, _, _, hwa', _⟩, hc, hwn, hwc, _⟩ := hr
    simp only [UExpr.width] at hwn
    refine (Sound.threeBits (w := wr) (g := Sound.chB) (ih a (by simp; omega) ha) (ih b (by simp; omega) hb) (ih c (by simp; omega) hc)
      hwa hwb hwc (fun a b c x y z => (Sound.chBit a b c x y z (pre := True)).pre_of fun h => ⟨trivial, h⟩)
      ?_ ?_ ?_).post ?_
    · intro h; simp only [evalUI, evalU, h, exc_err]
    · intro x h h'; simp only [evalUI, evalU, h, h', exc_ok, exc_err]
    · intro x y h h' h''; simp only [evalUI, evalU, h, h', h'', exc_ok, exc_err]
    · rintro u _ ⟨al, bl, cl, h1, h2, h3, e1, e2, e3, bs, rfl, hb⟩
      have hlen : ((al.zip (bl.zip cl)).map (fun t => Sound.chB t.1 t.2.1 t.2.2)).length = wr := by simp; omega
      have hlt := natBE_lt ((al.zip (bl.zip cl)).map (fun t => Sound.chB t.1 t.2.1 t.2.2))
      refine ⟨_, ?_, URel.ofBits hb hlen rfl (by rw [hlen] at hlt; omega)⟩
      rw [natBE_ch (by omega) (by omega)]
      simp only [evalUI, evalU, h1, h2, h3, exc_ok]
      rw [e1, ← hwn]
  · rintro wl ml w0 m0 a b w1 m1 c wr mr rfl rfl
    simp only [UExpr.width] at hwl hwr
    subst hwl hwr
    simp only [OkU, OkUI] at hl hr
    obtain ⟨_, _, _, ⟨_, _, _, ha, hb, hwa, hwb, _⟩, ⟨_, _, _, _, _, _, _, _⟩, hw0, hw1, _⟩ := hl
    obtain ⟨_, _, _, _, hc, hwb', hwc, _⟩ := hr
    simp only [UExpr.width] at hw0 hw1
    refine (Sound.threeBits (w := wr) (g := Sound.majB) (ih a (by simp; omega) ha) (ih b (by simp; omega) hb) (ih c (by simp; omega) hc)
      (by omega) (by omega) hwc (fun a b c x y z => (Sound.majBit a b c x y z (pre := True)).pre_of fun h => ⟨trivial, h⟩)
      ?_ ?_ ?_).post ?_
    · intro h; simp only [evalUI, evalU, h, exc_err]
    · intro x h h'; simp only [evalUI, evalU, h, h', exc_ok, exc_err]
    · intro x y h h' h''; simp only [evalUI, evalU, h, h', h'', exc_ok, exc_err]
    · rintro u _ ⟨al, bl, cl, h1, h2, h3, e1, e2, e3, bs, rfl, hb⟩
      have hlen : ((al.zip (bl.zip cl)).map (fun t => Sound.majB t.1 t.2.1 t.2.2)).length = wr := by simp; omega
      have hlt := natBE_lt ((al.zip (bl.zip cl)).map (fun t => Sound.majB t.1 t.2.1 t.2.2))
      refine ⟨_, ?_, URel.ofBits hb hlen rfl (by rw [hlen] at hlt; omega)⟩
      rw [natBE_maj (by omega) (by omega)]
      simp only [evalUI, evalU, h1, h2, h3, exc_ok]

end cases

theorem sndU_of (hp : 2 < p) {w : ℕ} {m : UMeta (ZMod p)} {i : UInner (ZMod p)}
    (hmx : m.max.val < 2 ^ (requiredBits p - 1)) (hw : w < requiredBits p)
    (h : SndUI Z env L ρ w m.max.val i) : SndU Z env L ρ (.mk w (some m) i) := by
  unfold SndU; rw [Flt.flattenU]
  have hE : evalU env (.mk w (some m) i) = evalUI env w i := by rw [evalU]
  rw [hE]
  have key : ∀ tr : Bool, (tr = true ↔ m.shouldReduce = .yes) → Sound ρ L (evalUI env w i = .error .divZero) True
      (Flt.flattenUI w i >>= fun u => Flt.uTail w m.max tr u : FlatM p Z _)
      (fun u => ∃ n, evalUI env w i = .ok n ∧ URel ρ w (UExpr.emax (.mk w (some m) i)) n u ∧
        (UExpr.Reduced (.mk w (some m) i) → URed ρ w n u)) := by
    intro tr hr
    refine Sound.bind_ex (h.escape fun _ h => h) fun u n => ?_
    refine ((Sound.uTail hp w n m.max tr u hmx hw (pre := True)).pre_of fun h => ⟨trivial, h.2.2⟩).post ?_
    rintro u' ⟨_, he, _⟩ ⟨h1, h2⟩
    refine ⟨n, he, ?_, ?_⟩
    · have : UExpr.emax (.mk w (some m) i) = if tr = true then min (2 ^ w - 1) m.max.val else m.max.val := by
        simp only [UExpr.emax, UExpr.info, UExpr.width, hr]
      rw [this]; exact h1
    · rintro ⟨m', hm', hy⟩
      cases hm'
      exact h2 (hr.2 hy)
  cases hs : m.shouldReduce with
  | unknown =>
    have : (Flt.readInfo (some m) : FlatM p Z _) = Flt.panic := by
      unfold Flt.readInfo; simp only [Flt.unwrap, pure_bind, hs, ShouldReduce.toBool?]; rfl
    rw [this]; exact Sound.panic_bind
  | yes =>
    have : (Flt.readInfo (some m) : FlatM p Z _) = pure (m.max, true) := by
      unfold Flt.readInfo; simp only [Flt.unwrap, pure_bind, hs, ShouldReduce.toBool?]
    rw [this, pure_bind]; exact key true (by simp [hs])
  | no =>
    have : (Flt.readInfo (some m) : FlatM p Z _) = pure (m.max, false) := by
      unfold Flt.readInfo; simp only [Flt.unwrap, pure_bind, hs, ShouldReduce.toBool?]
    rw [this, pure_bind]; exact key false (by simp [hs])

/-- Soundness of the flattening of an unsigned integer expression before reduction, given that of its parts. -/
theorem sndUI_of (hp : 2 < p) (henv : EnvOk Γ env L ρ) (w mx : ℕ) (i : UInner (ZMod p))
    (ihB : ∀ e : BExpr (ZMod p), sizeOf e < sizeOf i → OkB Γ e → SndB Z env L ρ e)
    (ihU : ∀ e : UExpr (ZMod p), sizeOf e < sizeOf i → OkU Γ e → SndU Z env L ρ e)
    (hmx : mx < 2 ^ (requiredBits p - 1)) (h1 : 1 ≤ w) (h2 : 2 * w + 2 ≤ requiredBits p) (hok : OkUI Γ w mx i) :
    SndUI Z env L ρ w mx i := by
  have h66 : ∀ i : UExpr (ZMod p), OkU Γ i → i.width = 32 → 66 ≤ requiredBits p := by
    rintro ⟨w, m, i⟩ h hw
    simp only [OkU] at h
    simp only [UExpr.width] at hw
    omega
  have hmem : ∀ {α : Type} [SizeOf α] (e : α) (es : List α), e ∈ es → sizeOf e < sizeOf es :=
    fun e es h => List.sizeOf_lt_of_mem h
  cases i with
  | value k => simp only [OkUI] at hok; exact sndUI_value (by omega) hok.1 hok.2
  | ident x =>
    simp only [OkUI] at hok
    obtain ⟨k, h3, h4⟩ := hok
    exact sndUI_ident (by omega) henv h3 h4
  | select es i =>
    simp only [OkUI] at hok
    obtain ⟨h3, h4, h5, h6, h7⟩ := hok
    exact sndUI_select hp (by omega) (fun e he => ihU e (by have := hmem e es he; simp; omega) (okUs_mem h3 e he).1)
      (fun e he => (okUs_mem h3 e he).2) (ihU i (by simp <;> omega) h5) h6 (h66 i h5 h6) h7 h4
  | add l r =>
    simp only [OkUI] at hok
    obtain ⟨h3, h4, h5, h6, h7⟩ := hok
    exact sndUI_add hmx (by omega) (ihU l (by simp <;> omega) h3) (ihU r (by simp <;> omega) h4) h5 h6 h7
  | sub l r =>
    simp only [OkUI] at hok
    obtain ⟨h3, h4, h5, h6, h7⟩ := hok
    exact sndUI_sub hmx (by omega) (ihU l (by simp <;> omega) h3) (ihU r (by simp <;> omega) h4) h5 h6 h7
  | mult l r =>
    simp only [OkUI] at hok
    obtain ⟨h3, h4, h5, h6, h7⟩ := hok
    exact sndUI_mult hmx (by omega) (ihU l (by simp <;> omega) h3) (ihU r (by simp <;> omega) h4) h5 h6 h7
  | div l r =>
    simp only [OkUI] at hok
    obtain ⟨h3, h4, h5, h6, h7, h8, h9⟩ := hok
    exact sndUI_div hp h2 (ihU l (by simp <;> omega) h3) (ihU r (by simp <;> omega) h4) h5 h6 h7 h8 h9
  | rem l r =>
    simp only [OkUI] at hok
    obtain ⟨h3, h4, h5, h6, h7, h8, h9⟩ := hok
    exact sndUI_rem hp h2 (ihU l (by simp <;> omega) h3) (ihU r (by simp <;> omega) h4) h5 h6 h7 h8 h9
  | xor l r =>
    simp only [OkUI] at hok
    obtain ⟨h3, h4, h5, h6, h7, h8, h9⟩ := hok
    exact sndUI_xor (fun e he hk => ihU e (by simp <;> omega) hk) h3 h4 h5 h6 h9
  | and l r =>
    simp only [OkUI] at hok
    obtain ⟨h3, h4, h5, h6, h7, h8, h9⟩ := hok
    exact sndUI_and (ihU l (by simp <;> omega) h3) (ihU r (by simp <;> omega) h4) h5 h6 h9
  | or l r =>
    simp only [OkUI] at hok
    obtain ⟨h3, h4, h5, h6, h7, h8, h9⟩ := hok
    exact sndUI_or (ihU l (by simp <;> omega) h3) (ihU r (by simp <;> omega) h4) h5 h6 h9
  | leftShift e b =>
    simp only [OkUI] at hok
    obtain ⟨h3, h4, h5, wb, mb, k, rfl, h6, h7⟩ := hok
    exact sndUI_leftShift (ihU e (by simp <;> omega) h3) h4 h5 h6 h7
  | rightShift e b =>
    simp only [OkUI] at hok
    obtain ⟨h3, h4, h5, wb, mb, k, rfl, h6, h7⟩ := hok
    exact sndUI_rightShift (ihU e (by simp <;> omega) h3) h4 h5 h6 h7
  | not e =>
    simp only [OkUI] at hok
    obtain ⟨h3, h4, h5, h6⟩ := hok
    exact sndUI_not (ihU e (by simp <;> omega) h3) h4 h6
  | cond c t e =>
    simp only [OkUI] at hok
    obtain ⟨h3, h4, h5, h6, h7, h8, h9⟩ := hok
    exact sndUI_cond (by omega) (ihB c (by simp <;> omega) h3) (ihU t (by simp <;> omega) h4) (ihU e (by simp <;> omega) h5) h6 h7 h8 h9

/-- Soundness of the flattening of all well-formed expressions. -/
theorem snd_all (hp : 2 < p) (henv : EnvOk Γ env L ρ) (n : ℕ) :
    (∀ e : FExpr (ZMod p), sizeOf e < n → OkF Γ e → SndF Z env L ρ e) ∧
    (∀ e : BExpr (ZMod p), sizeOf e < n → OkB Γ e → SndB Z env L ρ e) ∧
    (∀ e : UExpr (ZMod p), sizeOf e < n → OkU Γ e → SndU Z env L ρ e) := by
  induction n with
  | zero => exact ⟨fun _ h => absurd h (by omega), fun _ h => absurd h (by omega), fun _ h => absurd h (by omega)⟩
  | succ n ih =>
    obtain ⟨ihF, ihB, ihU⟩ := ih
    have h66 : ∀ i : UExpr (ZMod p), OkU Γ i → i.width = 32 → 66 ≤ requiredBits p := by
      rintro ⟨w, m, i⟩ h hw
      simp only [OkU] at h
      simp only [UExpr.width] at hw
      omega
    have hwd : ∀ i : UExpr (ZMod p), OkU Γ i → 1 ≤ i.width ∧ 2 * i.width + 2 ≤ requiredBits p := by
      rintro ⟨w, m, i⟩ h
      simp only [OkU] at h
      exact ⟨h.2.1, h.2.2.1⟩
    have hmem : ∀ {α : Type} [SizeOf α] (e : α) (es : List α), e ∈ es → sizeOf e < sizeOf es :=
      fun e es h => List.sizeOf_lt_of_mem h
    refine ⟨?_, ?_, ?_⟩
    · intro e hn hok
      cases e with
      | value _ => exact sndF_value _
      | ident x => exact sndF_ident henv (by simpa [OkF] using hok)
      | select es i =>
        simp only [OkF] at hok
        obtain ⟨h1, h2, h3, h4, h5⟩ := hok
        simp at hn
        exact sndF_select hp (fun e he => ihF e (by have := hmem e es he; omega) (okFs_mem h1 e he))
          (ihU i (by omega) h3) h4 (h66 i h3 h4) h5 h2
      | add l r => simp only [OkF] at hok; simp at hn; exact sndF_add (ihF l (by omega) hok.1) (ihF r (by omega) hok.2)
      | sub l r => simp only [OkF] at hok; simp at hn; exact sndF_sub (ihF l (by omega) hok.1) (ihF r (by omega) hok.2)
      | mult l r => simp only [OkF] at hok; simp at hn; exact sndF_mult (ihF l (by omega) hok.1) (ihF r (by omega) hok.2)
      | div l r => simp only [OkF] at hok; simp at hn; exact sndF_div (ihF l (by omega) hok.1) (ihF r (by omega) hok.2)
      | pow b e =>
        simp only [OkF] at hok; simp at hn
        obtain ⟨h1, w, m, k, rfl, hk⟩ := hok
        exact sndF_pow (ihF b (by omega) h1) hk
      | cond c t e =>
        simp only [OkF] at hok; simp at hn
        exact sndF_cond (ihB c (by omega) hok.1) (ihF t (by omega) hok.2.1) (ihF e (by omega) hok.2.2)
      | and _ _ => exact absurd hok (by simp [OkF])
      | or _ _ => exact absurd hok (by simp [OkF])
      | xor _ _ => exact absurd hok (by simp [OkF])
      | leftShift _ _ => exact absurd hok (by simp [OkF])
      | rightShift _ _ => exact absurd hok (by simp [OkF])
    · intro e hn hok
      cases e with
      | value _ => exact sndB_value _
      | ident x => exact sndB_ident henv (by simpa [OkB] using hok)
      | select es i =>
        simp only [OkB] at hok
        obtain ⟨h1, h2, h3, h4, h5⟩ := hok
        simp at hn
        exact sndB_select hp (fun e he => ihB e (by have := hmem e es he; omega) (okBs_mem h1 e he))
          (ihU i (by omega) h3) h4 (h66 i h3 h4) h5 h2
      | fieldLt l r => simp only [OkB] at hok; simp at hn; exact sndB_fieldLt hp (ihF l (by omega) hok.1) (ihF r (by omega) hok.2)
      | fieldLe l r => simp only [OkB] at hok; simp at hn; exact sndB_fieldLe hp (ihF l (by omega) hok.1) (ihF r (by omega) hok.2)
      | fieldEq l r => simp only [OkB] at hok; simp at hn; exact sndB_fieldEq (ihF l (by omega) hok.1) (ihF r (by omega) hok.2)
      | uintLt l r =>
        simp only [OkB] at hok; simp at hn
        obtain ⟨h1, h2, h3, h4, h5⟩ := hok
        exact sndB_uintLt hp (ihU l (by omega) h1) (ihU r (by omega) h2) (hwd l h1).2 (hwd l h1).1 h3 h4 h5
      | uintLe l r =>
        simp only [OkB] at hok; simp at hn
        obtain ⟨h1, h2, h3, h4, h5⟩ := hok
        exact sndB_uintLe hp (ihU l (by omega) h1) (ihU r (by omega) h2) (hwd l h1).2 (hwd l h1).1 h3 h4 h5
      | uintEq l r =>
        simp only [OkB] at hok; simp at hn
        obtain ⟨h1, h2, h3, h4, h5⟩ := hok
        exact sndB_uintEq (ihU l (by omega) h1) (ihU r (by omega) h2) (by have := hwd l h1; omega) h3 h4 h5
      | boolEq l r => simp only [OkB] at hok; simp at hn; exact sndB_boolEq (ihB l (by omega) hok.1) (ihB r (by omega) hok.2)
      | or l r => simp only [OkB] at hok; simp at hn; exact sndB_or (ihB l (by omega) hok.1) (ihB r (by omega) hok.2)
      | and l r => simp only [OkB] at hok; simp at hn; exact sndB_and (ihB l (by omega) hok.1) (ihB r (by omega) hok.2)
      | not e => simp only [OkB] at hok; simp at hn; exact sndB_not (ihB e (by omega) hok)
      | cond c t e =>
        simp only [OkB] at hok; simp at hn
        exact sndB_cond (ihB c (by omega) hok.1) (ihB t (by omega) hok.2.1) (ihB e (by omega) hok.2.2)
    · rintro ⟨w, m, i⟩ hn hok
      simp only [OkU] at hok
      obtain ⟨⟨m', rfl, hmx⟩, h1, h2, hok⟩ := hok
      have hax : UExpr.amax (.mk w (some m') i) = m'.max.val := rfl
      rw [hax] at hok
      refine sndU_of hp hmx (by omega) ?_
      simp at hn
      exact sndUI_of hp henv w _ i (fun e he hk => ihB e (by omega) hk) (fun e he hk => ihU e (by omega) hk) hmx h1 h2 hok

theorem sndF_of_ok (hp : 2 < p) (henv : EnvOk Γ env L ρ) {e : FExpr (ZMod p)} (h : OkF Γ e) : SndF Z env L ρ e :=
  (snd_all hp henv (sizeOf e + 1)).1 e (by omega) h

theorem sndB_of_ok (hp : 2 < p) (henv : EnvOk Γ env L ρ) {e : BExpr (ZMod p)} (h : OkB Γ e) : SndB Z env L ρ e :=
  (snd_all hp henv (sizeOf e + 1)).2.1 e (by omega) h

theorem sndU_of_ok (hp : 2 < p) (henv : EnvOk Γ env L ρ) {e : UExpr (ZMod p)} (h : OkU Γ e) : SndU Z env L ρ e :=
  (snd_all hp henv (sizeOf e + 1)).2.2 e (by omega) h

theorem sndUI_of_ok (hp : 2 < p) (henv : EnvOk Γ env L ρ) {w mx : ℕ} {i : UInner (ZMod p)}
    (hmx : mx < 2 ^ (requiredBits p - 1)) (h1 : 1 ≤ w) (h2 : 2 * w + 2 ≤ requiredBits p) (h : OkUI Γ w mx i) :
    SndUI Z env L ρ w mx i :=
  sndUI_of hp henv w mx i (fun e _ he => sndB_of_ok hp henv he) (fun e _ he => sndU_of_ok hp henv he) hmx h1 h2 h

end Zok
