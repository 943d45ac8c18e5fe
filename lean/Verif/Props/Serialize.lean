import Verif.Lemmas.SerializeProg
import Verif.Spec.TestField
import Mathlib.Data.Set.Card

/-
C29-C32: witness files, program files and the detection of unconstrained variables.
-/

namespace Zok.Ser
variable {p : ℕ}

/-! ### C29 -/

/-- Reading a written witness gives it back, and leaves what follows unread. A witness is a map sorted by its keys; keys are
64-bit integers. -/
theorem C29_roundtrip [Fact p.Prime] (w : SMap (ZMod p)) (sorted : SMap.Sorted w) (len : w.length < 2 ^ 64)
    (keys : ∀ v ∈ SMap.keys w, VarOk v) (rest : Bytes) : readWitness p (writeWitness w ++ rest) = some (w, rest) := by
  unfold readWitness writeWitness
  rw [List.append_assoc, readLE_write (by norm_num at len ⊢; exact len)]
  simpa using readEntries_write w [] (by simpa using sorted) keys rest

/-- Reading a truncated witness file fails. -/
theorem C29_truncated [Fact p.Prime] (w : SMap (ZMod p)) (sorted : SMap.Sorted w) (len : w.length < 2 ^ 64)
    (keys : ∀ v ∈ SMap.keys w, VarOk v) (n : ℕ) (hn : n < (writeWitness w).length) :
    readWitness p ((writeWitness w).take n) = none := by
  refine Ext.prefix ext_readWitness (b := writeWitness w) (a := w) ?_ (List.take_prefix _ _) ?_
  · simpa using C29_roundtrip w sorted len keys []
  · intro h
    have := congrArg List.length h
    simp at this
    omega

/-- Different witnesses have different files. -/
theorem C29_injective [Fact p.Prime] (w w' : SMap (ZMod p)) (sorted : SMap.Sorted w) (len : w.length < 2 ^ 64)
    (keys : ∀ v ∈ SMap.keys w, VarOk v) (sorted' : SMap.Sorted w') (len' : w'.length < 2 ^ 64)
    (keys' : ∀ v ∈ SMap.keys w', VarOk v) (h : writeWitness w = writeWitness w') : w = w' := by
  have h1 := C29_roundtrip w sorted len keys []
  rw [h, C29_roundtrip w' sorted' len' keys' []] at h1
  simpa using h1.symm

/-- Non-vacuity: a witness with a public output (negative identifier), the constant one and a private variable. -/
example : let w : SMap (ZMod 97) := [((-1 : ℤ), 96), ((0 : ℤ), 1), ((1 : ℤ), 42)]
    SMap.Sorted w ∧ w.length < 2 ^ 64 ∧ (∀ v ∈ SMap.keys w, VarOk v) ∧
    writeWitness w = [3,0,0,0,0,0,0,0, 255,255,255,255,255,255,255,255, 96,0,0,0,0,0,0,0,
      0,0,0,0,0,0,0,0, 1,0,0,0,0,0,0,0, 1,0,0,0,0,0,0,0, 42,0,0,0,0,0,0,0] := by
  refine ⟨by simp [SMap.Sorted], by norm_num, ?_, by decide +kernel⟩
  intro v hv
  simp only [SMap.keys, List.map_cons, List.map_nil, List.mem_cons, List.not_mem_nil, or_false] at hv
  rcases hv with rfl | rfl | rfl <;> (unfold VarOk; norm_num)

/-! ### C30 -/

/-- Reading a written header gives it back and leaves what follows unread. -/
theorem C30_roundtrip (h : ProgHeader) (ok : HeaderOk h) (rest : Bytes) :
    readHeader (writeHeader h ++ rest) = some (h, rest) := readHeader_write ok rest

/-- A truncated header is rejected. -/
theorem C30_truncated (h : ProgHeader) (ok : HeaderOk h) (n : ℕ) (hn : n < (writeHeader h).length) :
    readHeader ((writeHeader h).take n) = none := by
  refine Ext.prefix ext_readHeader (b := writeHeader h) (a := h) ?_ (List.take_prefix _ _) ?_
  · simpa using C30_roundtrip h ok []
  · intro h
    have := congrArg List.length h
    simp at this
    omega

/-- Every file shorter than a header is rejected. -/
theorem C30_short_file (id : Curve → Bytes) (file : Bytes) (bytes : ∀ x ∈ file, x < 256) (short : file.length < 100) :
    identify id file = .error .header := by
  unfold identify
  cases h : readHeader file with
  | none => rfl
  | some x =>
    obtain ⟨hd, r⟩ := x
    obtain ⟨rfl, ok⟩ := readHeader_inv bytes h
    rw [List.length_append, length_writeHeader ok] at short
    omega

/-- The header reader accepts exactly what the writer writes. -/
theorem C30_reads_only_headers (r : Bytes) (bytes : ∀ x ∈ r, x < 256) (h : ProgHeader) (r' : Bytes) :
    readHeader r = some (h, r') ↔ HeaderOk h ∧ r = writeHeader h ++ r' :=
  ⟨fun e => (readHeader_inv bytes e).symm, fun e => e.2 ▸ readHeader_write e.1 r'⟩

theorem tag_bytes (t : SectionType) :
    Fld.bytesLE 4 t.toNat ∈ ([[1,0,0,0], [2,0,0,0], [3,0,0,0], [4,0,0,0]] : List Bytes) := by
  cases t <;> decide

/-- A file that is not rejected: it has the magic number, the version, the identifier of the curve that is returned, and four
section tags between 1 and 4 at their place. -/
theorem C30_accepted (id : Curve → Bytes) (file : Bytes) (bytes : ∀ x ∈ file, x < 256) (c : Curve) (h : ProgHeader)
    (hok : identify id file = .ok (c, h)) :
    100 ≤ file.length ∧ file.take 4 = [0x5a, 0x4f, 0x4b, 0] ∧ (file.drop 4).take 4 = [3, 0, 0, 0] ∧
    (file.drop 8).take 4 = id c ∧
    ∀ k < 4, (file.drop (20 + 20 * k)).take 4 ∈ ([[1,0,0,0], [2,0,0,0], [3,0,0,0], [4,0,0,0]] : List Bytes) := by
  unfold identify at hok
  cases hr : readHeader file with
  | none => rw [hr] at hok; cases hok
  | some x =>
    obtain ⟨hd, r⟩ := x
    rw [hr] at hok
    simp only at hok
    split at hok
    · cases hok
    rename_i hm
    split at hok
    · cases hok
    rename_i hv
    push Not at hm hv
    cases hc : selectCurve id hd.curveId with
    | none => rw [hc] at hok; cases hok
    | some c' =>
      rw [hc] at hok
      simp only [Except.ok.injEq, Prod.mk.injEq] at hok
      obtain ⟨rfl, rfl⟩ := hok
      have hid := selectCurve_inv hc
      obtain ⟨rfl, ok⟩ := readHeader_inv bytes hr
      have hl := length_writeHeader ok
      refine ⟨by rw [List.length_append]; omega, ?_⟩
      obtain ⟨m, v, cid, cc, rc, s1, s2, s3, s4⟩ := hd
      obtain ⟨m1, m2, m3, m4, lm⟩ : ∃ a b c d, m = [a, b, c, d] := by
        have := ok.magic
        match m, this with
        | [a, b, c, d], _ => exact ⟨a, b, c, d, rfl⟩
      obtain ⟨v1, v2, v3, v4, lv⟩ : ∃ a b c d, v = [a, b, c, d] := by
        have := ok.version
        match v, this with
        | [a, b, c, d], _ => exact ⟨a, b, c, d, rfl⟩
      obtain ⟨c1, c2, c3, c4, lc⟩ : ∃ a b c d, cid = [a, b, c, d] := by
        have := ok.curve
        match cid, this with
        | [a, b, c, d], _ => exact ⟨a, b, c, d, rfl⟩
      simp only at hm hv hid
      subst lm lv lc
      refine ⟨?_, ?_, ?_, ?_⟩
      · rw [← MAGIC, ← hm]; rfl
      · rw [← VERSION, ← hv]; rfl
      · rw [← hid]; rfl
      · intro k hk
        have e1 := tag_bytes s1.ty
        have e2 := tag_bytes s2.ty
        have e3 := tag_bytes s3.ty
        have e4 := tag_bytes s4.ty
        interval_cases k
        · exact e1
        · exact e2
        · exact e3
        · exact e4

/-- Conversely: files with the right magic number, version and curve identifier and readable sections are accepted, and the
program variant is the one of the curve. -/
theorem C30_written_header_accepted (id : Curve → Bytes) (inj : Function.Injective id) (c : Curve) (h : ProgHeader)
    (ok : HeaderOk h) (magic : h.magic = [0x5a, 0x4f, 0x4b, 0]) (version : h.version = [3, 0, 0, 0])
    (curve : h.curveId = id c) (rest : Bytes) : identify id (writeHeader h ++ rest) = .ok (c, h) := by
  unfold identify
  rw [readHeader_write ok]
  simp only
  rw [if_neg (by rw [magic]; simp [MAGIC]), if_neg (by rw [version]; simp [VERSION]), curve, selectCurve_id inj]

/-- Which error a foreign header gives. -/
theorem C30_errors (id : Curve → Bytes) (h : ProgHeader) (ok : HeaderOk h) (rest : Bytes) :
    (h.magic ≠ [0x5a, 0x4f, 0x4b, 0] → identify id (writeHeader h ++ rest) = .error .magic) ∧
    (h.magic = [0x5a, 0x4f, 0x4b, 0] → h.version ≠ [3, 0, 0, 0] →
      identify id (writeHeader h ++ rest) = .error .version) ∧
    (h.magic = [0x5a, 0x4f, 0x4b, 0] → h.version = [3, 0, 0, 0] → (∀ c, h.curveId ≠ id c) →
      identify id (writeHeader h ++ rest) = .error .curve) := by
  unfold identify
  rw [readHeader_write ok]
  refine ⟨fun hm => by simp only; rw [if_pos (show h.magic ≠ MAGIC from hm)], fun hm hv => ?_, fun hm hv hc => ?_⟩
  · simp only
    rw [if_neg (by rw [hm]; simp [MAGIC]), if_pos (show h.version ≠ VERSION from hv)]
  · simp only
    rw [if_neg (by rw [hm]; simp [MAGIC]), if_neg (by rw [hv]; simp [VERSION])]
    cases e : selectCurve id h.curveId with
    | none => rfl
    | some c => exact absurd (selectCurve_inv e) (hc c)

/-- Defect of the code: `ProgEnum::curve` of a Pallas or Vesta program returns the name of another curve. -/
theorem C30_wrong_curve_name : curveName .pallas = .bls12_377 ∧ curveName .vesta = .bw6_761 := ⟨rfl, rfl⟩

/-- Non-vacuity: a header satisfying `HeaderOk`, with distinct curve identifiers. -/
example : ∃ (id : Curve → Bytes) (h : ProgHeader), Function.Injective id ∧ HeaderOk h ∧
    identify id (writeHeader h) = .ok (.bn128, h) := by
  let id : Curve → Bytes := fun c => match c with
    | .bls12_381 => [0, 0, 0, 1] | .bn128 => [0, 0, 0, 2] | .bls12_377 => [0, 0, 0, 3]
    | .bw6_761 => [0, 0, 0, 4] | .pallas => [0, 0, 0, 5] | .vesta => [0, 0, 0, 6]
  let h : ProgHeader := ⟨[0x5a, 0x4f, 0x4b, 0], [3, 0, 0, 0], [0, 0, 0, 2], 7, 1,
    ⟨.parameters, 120, 10⟩, ⟨.constraints, 130, 100⟩, ⟨.solvers, 230, 1⟩, ⟨.solvers, 231, 1⟩⟩
  have inj : Function.Injective id := by
    intro a b; cases a <;> cases b <;> simp [id]
  have ok : HeaderOk h := ⟨rfl, rfl, rfl, by norm_num [h], by norm_num [h], by norm_num [h, SectionOk],
    by norm_num [h, SectionOk], by norm_num [h, SectionOk], by norm_num [h, SectionOk]⟩
  exact ⟨id, h, inj, ok, by simpa using C30_written_header_accepted id inj .bn128 h ok rfl rfl rfl []⟩

/-! ### C31 -/

section
variable {F Z M : Type _}

/-- Exactly what is read back from a written file, whatever the hash. -/
theorem file_read_back (cd : Codec F Z M) (law : cd.Lawful) (sem : SolverSem F Z) (hash : Z → ℕ) (id : Curve → Bytes)
    (inj : Function.Injective id) (four : ∀ c, (id c).length = 4) (c : Curve) (prog : Prog F Z) (mm : M)
    (ret : prog.returnCount < 2 ^ 32) (size : (serialize cd sem hash (id c) prog mm).1.length < 2 ^ 64) :
    deserialize cd id c (serialize cd sem hash (id c) prog mm).1 =
      .ok (⟨prog.arguments, prog.returnCount, (indexStmts sem hash prog.statements ⟨[], []⟩).1,
        (indexStmts sem hash prog.statements ⟨[], []⟩).2.solvers⟩, mm) := by
  unfold serialize at size ⊢
  generalize hr : indexStmts sem hash prog.statements ⟨[], []⟩ = r at size ⊢
  obtain ⟨ss', ix⟩ := r
  simp only at size ⊢
  generalize hA : cd.encArgs prog.arguments = A at size ⊢
  generalize hB : ss'.flatMap cd.encStmt = B at size ⊢
  generalize hC : cd.encSolvers ix.solvers = C at size ⊢
  generalize hD : cd.encModules mm = D at size ⊢
  generalize hw0 : List.replicate HEADER_SIZE 0 = w0 at size ⊢
  have lw0 : w0.length = 120 := by rw [← hw0]; simp [HEADER_SIZE]
  have hc32 : (prog.statements.filter isConstraint).length % 2 ^ 32 < 2 ^ 32 := Nat.mod_lt _ (by norm_num)
  generalize hcount : (prog.statements.filter isConstraint).length % 2 ^ 32 = cnt at size hc32 ⊢
  generalize hh : (⟨MAGIC, VERSION, id c, cnt, prog.returnCount % 2 ^ 32,
    (⟨.parameters, w0.length, (w0 ++ A).length - w0.length⟩,
     ⟨.constraints, (w0 ++ A).length, (w0 ++ A ++ B).length - (w0 ++ A).length⟩,
     ⟨.solvers, (w0 ++ A ++ B).length, (w0 ++ A ++ B ++ C).length - (w0 ++ A ++ B).length⟩,
     ⟨.solvers, (w0 ++ A ++ B ++ C).length, (w0 ++ A ++ B ++ C ++ D).length - (w0 ++ A ++ B ++ C).length⟩)⟩ :
      ProgHeader) = h at size ⊢
  have hlen : 100 ≤ (w0 ++ A ++ B ++ C ++ D).length := by simp [lw0]; omega
  have hwl : (writeHeader h).length = 100 := by
    rw [← hh]
    simp [writeHeader, writeSection, writeLE, Fld.length_bytesLE, MAGIC, VERSION, four c]
  rw [length_overwrite _ _ (by rw [hwl]; exact hlen)] at size
  simp only [List.length_append, lw0] at size
  have ok : HeaderOk h := by
    rw [← hh]
    refine ⟨rfl, rfl, four c, hc32, Nat.mod_lt _ (by norm_num), ?_, ?_, ?_, ?_⟩ <;>
      (simp only [SectionOk, List.length_append, lw0]; omega)
  have hident : identify id (overwrite (w0 ++ A ++ B ++ C ++ D) (writeHeader h)) = .ok (c, h) :=
    C30_written_header_accepted id inj c h ok (by rw [← hh]; rfl) (by rw [← hh]; rfl) (by rw [← hh]) _
  have hret : h.returnCount = prog.returnCount := by
    rw [← hh]
    exact Nat.mod_eq_of_lt ret
  · unfold deserialize
    rw [hident]
    simp only [if_true]
    unfold readProg
    have o1 : h.sections.1.offset = w0.length := by rw [← hh]
    have o2 : h.sections.2.1.offset = (w0 ++ A).length := by rw [← hh]
    have o3 : h.sections.2.2.1.offset = (w0 ++ A ++ B).length := by rw [← hh]
    have o4 : h.sections.2.2.2.offset = (w0 ++ A ++ B ++ C).length := by rw [← hh]
    have d1 : (overwrite (w0 ++ A ++ B ++ C ++ D) (writeHeader h)).drop h.sections.1.offset = A ++ (B ++ C ++ D) := by
      rw [drop_overwrite _ _ _ (by rw [hwl, o1, lw0]; norm_num), o1]
      simp only [List.append_assoc, List.drop_left]
    have d2 : (overwrite (w0 ++ A ++ B ++ C ++ D) (writeHeader h)).drop h.sections.2.1.offset = B ++ (C ++ D) := by
      rw [drop_overwrite _ _ _ (by rw [hwl, o2, List.length_append, lw0]; omega), o2]
      rw [show w0 ++ A ++ B ++ C ++ D = (w0 ++ A) ++ (B ++ (C ++ D)) by simp, List.drop_left]
    have d3 : (overwrite (w0 ++ A ++ B ++ C ++ D) (writeHeader h)).drop h.sections.2.2.1.offset = C ++ D := by
      rw [drop_overwrite _ _ _ (by rw [hwl, o3, List.length_append, List.length_append, lw0]; omega), o3]
      rw [show w0 ++ A ++ B ++ C ++ D = (w0 ++ A ++ B) ++ (C ++ D) by simp, List.drop_left]
    have d4 : (overwrite (w0 ++ A ++ B ++ C ++ D) (writeHeader h)).drop h.sections.2.2.2.offset = D ++ [] := by
      rw [drop_overwrite _ _ _ (by rw [hwl, o4, List.length_append, List.length_append, List.length_append, lw0]; omega), o4]
      rw [List.drop_left, List.append_nil]
    have hst : readStmts cd ((overwrite (w0 ++ A ++ B ++ C ++ D) (writeHeader h)).length + 1) (B ++ (C ++ D)) = ss' := by
      rw [← hB]
      refine readStmts_write law ss' _ (by rw [← hC]; exact law.stop _ _) _ ?_
      rw [hB, length_overwrite _ _ (by rw [hwl]; exact hlen)]
      have := length_le_flatMap law ss'
      rw [hB] at this
      simp only [List.length_append]
      omega
    rw [d1, d2, d3, d4, hst, ← hA, law.args, ← hC, law.solvers, ← hD, law.modules, hret]

/-- A program file is read back: same arguments, return count and module map; statements only differ in that user-defined
solvers have become references to an equal solver of the table. -/
theorem C31_roundtrip (cd : Codec F Z M) (law : cd.Lawful) (sem : SolverSem F Z) (hash : Z → ℕ) (id : Curve → Bytes)
    (inj : Function.Injective id) (four : ∀ c, (id c).length = 4) (c : Curve) (prog : Prog F Z) (mm : M)
    (noCollision : Set.InjOn hash (userSolvers prog.statements)) (ret : prog.returnCount < 2 ^ 32)
    (size : (serialize cd sem hash (id c) prog mm).1.length < 2 ^ 64) :
    ∃ prog', deserialize cd id c (serialize cd sem hash (id c) prog mm).1 = .ok (prog', mm) ∧
      prog'.arguments = prog.arguments ∧ prog'.returnCount = prog.returnCount ∧
      List.Forall₂ (SameStmt sem prog'.solvers) prog.statements prog'.statements := by
  obtain ⟨-, -, hsame⟩ := indexStmts_ok sem hash (userSolvers prog.statements) noCollision prog.statements
    (fun i o f h => ⟨i, o, h⟩) ⟨[], []⟩ ⟨by intro h i hl; simp at hl⟩
  exact ⟨_, file_read_back cd law sem hash id inj four c prog mm ret size, rfl, rfl, hsame _ (Grows.rfl _)⟩

/-- The number of constraints written in the header, and returned on success, is the number of constraint statements of the
program. -/
theorem C31_constraint_count (cd : Codec F Z M) (sem : SolverSem F Z) (hash : Z → ℕ) (id : Curve → Bytes)
    (inj : Function.Injective id) (four : ∀ c, (id c).length = 4) (c : Curve) (prog : Prog F Z) (mm : M)
    (count : (prog.statements.filter isConstraint).length < 2 ^ 32)
    (size : (serialize cd sem hash (id c) prog mm).1.length < 2 ^ 64) :
    (∃ h, identify id (serialize cd sem hash (id c) prog mm).1 = .ok (c, h) ∧
      h.constraintCount = (prog.statements.filter isConstraint).length) ∧
    ∀ n, (serialize cd sem hash (id c) prog mm).2 = .ok n → n = (prog.statements.filter isConstraint).length := by
  constructor
  · unfold serialize at size ⊢
    generalize hr : indexStmts sem hash prog.statements ⟨[], []⟩ = r at size ⊢
    obtain ⟨ss', ix⟩ := r
    simp only at size ⊢
    generalize hA : cd.encArgs prog.arguments = A at size ⊢
    generalize hB : ss'.flatMap cd.encStmt = B at size ⊢
    generalize hC : cd.encSolvers ix.solvers = C at size ⊢
    generalize hD : cd.encModules mm = D at size ⊢
    generalize hw0 : List.replicate HEADER_SIZE 0 = w0 at size ⊢
    have lw0 : w0.length = 120 := by rw [← hw0]; simp [HEADER_SIZE]
    generalize hh : (⟨MAGIC, VERSION, id c, _, prog.returnCount % 2 ^ 32,
      (⟨.parameters, w0.length, (w0 ++ A).length - w0.length⟩,
       ⟨.constraints, (w0 ++ A).length, (w0 ++ A ++ B).length - (w0 ++ A).length⟩,
       ⟨.solvers, (w0 ++ A ++ B).length, (w0 ++ A ++ B ++ C).length - (w0 ++ A ++ B).length⟩,
       ⟨.solvers, (w0 ++ A ++ B ++ C).length, (w0 ++ A ++ B ++ C ++ D).length - (w0 ++ A ++ B ++ C).length⟩)⟩ :
        ProgHeader) = h at size ⊢
    have hlen : 100 ≤ (w0 ++ A ++ B ++ C ++ D).length := by simp [lw0]; omega
    have hwl : (writeHeader h).length = 100 := by
      rw [← hh]
      simp [writeHeader, writeSection, writeLE, Fld.length_bytesLE, MAGIC, VERSION, four c]
    rw [length_overwrite _ _ (by rw [hwl]; exact hlen)] at size
    simp only [List.length_append, lw0] at size
    have ok : HeaderOk h := by
      rw [← hh]
      refine ⟨rfl, rfl, four c, Nat.mod_lt _ (by norm_num), Nat.mod_lt _ (by norm_num), ?_, ?_, ?_, ?_⟩ <;>
        (simp only [SectionOk, List.length_append, lw0]; omega)
    exact ⟨h, C30_written_header_accepted id inj c h ok (by rw [← hh]; rfl) (by rw [← hh]; rfl) (by rw [← hh]) _,
      by rw [← hh]; exact Nat.mod_eq_of_lt count⟩
  · intro n hn
    unfold serialize at hn
    simp only at hn
    split at hn
    · exact (Except.ok.inj hn).symm
    · cases hn

end

/-! The same execution. -/

section
variable {Z M : Type _}

theorem executeSolver_same [Fact p.Prime] (sem : SolverSem (ZMod p) Z) (table table' : List (Solver Z)) (s s' : Solver Z)
    (h : SameSolver sem table' s s') (hr : ∀ k sig, s ≠ .ref k sig) (xs : List (ZMod p)) :
    executeSolver sem s' xs table' = executeSolver sem s xs table := by
  cases s with
  | zir f =>
    obtain ⟨i, rfl, hi⟩ := h
    simp only [executeSolver, hi]
  | ref k sig => exact absurd rfl (hr k sig)
  | _ => simp only [SameSolver] at h; subst h; rfl

theorem runDirective_same [Fact p.Prime] (sem : SolverSem (ZMod p) Z) (oor : Bool) (table table' : List (Solver Z))
    (s s' : Solver Z) (h : SameSolver sem table' s s') (hr : ∀ k sig, s ≠ .ref k sig) (xs : List (ZMod p)) :
    runDirective sem oor table' s' xs = runDirective sem oor table s xs := by
  have he := executeSolver_same sem table table' s s' h hr xs
  cases s with
  | zir f =>
    obtain ⟨i, rfl, hi⟩ := h
    simpa only [runDirective] using he
  | ref k sig => exact absurd rfl (hr k sig)
  | _ =>
    simp only [SameSolver] at h
    subst h
    unfold runDirective
    simp only [he]

theorem execStmts_same [Fact p.Prime] (sem : SolverSem (ZMod p) Z) (oor : Bool) (table table' : List (Solver Z))
    (ss ss' : List (Stmt (ZMod p) Z)) (h : List.Forall₂ (SameStmt sem table') ss ss') (nr : NoReferences ss)
    (w : Witness (ZMod p)) : execStmts sem oor table' w ss' = execStmts sem oor table w ss := by
  induction h generalizing w with
  | nil => rfl
  | @cons s s' ss ss' h1 h2 ih =>
    have nr' : NoReferences _ := fun i o k sig hm => nr i o k sig (by
      simp only [atomsL, List.mem_append]
      exact Or.inr hm)
    have hd : ∀ w, execStmt sem oor table' w s' = execStmt sem oor table w s := by
      intro w
      cases h1 with
      | block _ => rfl
      | constraint c => rfl
      | log l => rfl
      | @directive i o s s' hs =>
        have hsr : ∀ k sig, s ≠ .ref k sig := by
          rintro k sig rfl
          exact nr i o k sig (by simp [atomsL, atoms])
        simp only [execStmt]
        cases i.mapM (evalQuad w) with
        | none => rfl
        | some xs =>
          simp only
          rw [runDirective_same sem oor table table' s s' hs hsr]
    simp only [execStmts, hd]
    cases execStmt sem oor table w s with
    | error e => rfl
    | ok w' => exact ih nr' w'

/-- The deserialised program executes exactly like the program that was serialised: same witness or same error, for all
inputs. -/
theorem C31_same_execution [Fact p.Prime] (cd : Codec (ZMod p) Z M) (law : cd.Lawful) (sem : SolverSem (ZMod p) Z)
    (hash : Z → ℕ) (id : Curve → Bytes) (inj : Function.Injective id) (four : ∀ c, (id c).length = 4) (c : Curve)
    (prog : Prog (ZMod p) Z) (mm : M) (noCollision : Set.InjOn hash (userSolvers prog.statements))
    (noRef : NoReferences prog.statements) (ret : prog.returnCount < 2 ^ 32)
    (size : (serialize cd sem hash (id c) prog mm).1.length < 2 ^ 64) :
    ∃ prog', deserialize cd id c (serialize cd sem hash (id c) prog mm).1 = .ok (prog', mm) ∧
      ∀ oor inputs, execute sem oor inputs prog'.statements prog'.arguments prog'.solvers =
        execute sem oor inputs prog.statements prog.arguments prog.solvers := by
  obtain ⟨prog', h1, h2, -, h4⟩ := C31_roundtrip cd law sem hash id inj four c prog mm noCollision ret size
  refine ⟨prog', h1, fun oor inputs => ?_⟩
  unfold execute
  rw [h2, execStmts_same sem oor prog.solvers prog'.solvers _ _ h4 noRef]

end

/-! ### C32 -/

section
variable {F Z M : Type _}

theorem serialize_result (cd : Codec F Z M) (sem : SolverSem F Z) (hash : Z → ℕ) (curveId : Bytes) (prog : Prog F Z) (mm : M) :
    (serialize cd sem hash curveId prog mm).2 = if (unconstrained prog).dedup = [] then
      .ok (prog.statements.filter isConstraint).length else .error (unconstrained prog).dedup.length := by
  unfold serialize unconstrained
  simp only [detectL_index]

/-- Serialisation succeeds exactly when no variable is unused, and otherwise reports the number of unused variables. -/
theorem C32_exact (cd : Codec F Z M) (sem : SolverSem F Z) (hash : Z → ℕ) (curveId : Bytes) (prog : Prog F Z) (mm : M) :
    ((∃ n, (serialize cd sem hash curveId prog mm).2 = .ok n) ↔ ∀ v, ¬ Unused prog v) ∧
    ∀ n, (serialize cd sem hash curveId prog mm).2 = .error n → {v | Unused prog v}.ncard = n := by
  rw [serialize_result]
  have hmem : ∀ v, v ∈ (unconstrained prog).dedup ↔ Unused prog v := fun v => by
    rw [List.mem_dedup, mem_unconstrained]
  constructor
  · constructor
    · rintro ⟨n, hn⟩ v hv
      split at hn
      · rename_i he
        have := (hmem v).2 hv
        rw [he] at this
        cases this
      · cases hn
    · intro h
      refine ⟨_, if_pos ?_⟩
      exact List.eq_nil_iff_forall_not_mem.2 fun v hv => h v ((hmem v).1 hv)
  · intro n hn
    split at hn
    · cases hn
    · simp only [Except.error.injEq] at hn
      rw [← hn]
      have : {v | Unused prog v} = ((unconstrained prog).dedup.toFinset : Set Variable) := by
        ext v
        simp only [List.coe_toFinset, hmem]
      rw [this, Set.ncard_coe_finset, List.toFinset_card_of_nodup (List.nodup_dedup _)]

/-- A program without logs that is serialised successfully: every private argument occurs in a constraint, and every output
of a directive occurs in a constraint after the directive. -/
theorem C32_constrained (cd : Codec F Z M) (sem : SolverSem F Z) (hash : Z → ℕ) (curveId : Bytes) (prog : Prog F Z) (mm : M)
    (noLogs : ∀ l, Stmt.log l ∉ atomsL prog.statements) (n : ℕ)
    (ok : (serialize cd sem hash curveId prog mm).2 = .ok n) :
    (∀ v, PrivateArg prog v → ∃ s ∈ atomsL prog.statements, InConstraint v s) ∧
    ∀ pre d post, atomsL prog.statements = pre ++ Stmt.directive d :: post → ∀ v ∈ d.outputs,
      ∃ s ∈ post, InConstraint v s := by
  have h := ((C32_exact cd sem hash curveId prog mm).1).1 ⟨n, ok⟩
  have hlog : ∀ v, ∀ s ∈ atomsL prog.statements, ¬ InLog v s := by
    intro v s hs hl
    cases s with
    | log l => exact noLogs l hs
    | _ => exact hl
  constructor
  · intro v hv
    by_contra hc
    push Not at hc
    exact h v (Or.inl ⟨hv, fun s hs => ⟨hc s hs, hlog v s hs⟩⟩)
  · intro pre d post he v hv
    by_contra hc
    push Not at hc
    exact h v (Or.inr ⟨pre, d, post, he, hv, fun s hs => ⟨hc s hs, hlog v s (by rw [he]; simp [hs])⟩⟩)

end

end Zok.Ser
