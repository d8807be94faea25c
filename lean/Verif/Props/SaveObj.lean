import Mathlib.Algebra.Order.Ring.Rat
import Mathlib.Algebra.Field.Rat
import Mathlib.Algebra.Order.Field.Basic
import Mathlib.Tactic.Positivity
import Verif.Proof.SaveObj

/-!
# C50, C69: OBJ export

`ValidObj` (Spec/Obj.lean) only looks at the records of the file: every index of an `l` or `f` record
refers to a vertex of the block the record belongs to.
-/

set_option linter.unusedSectionVars false

namespace NS

open Outcome

variable {K V : Type} [Field K]

/-- C50: the file of a single curve is valid; its polyline joins consecutive vertices. -/
theorem C50_single_curve {c : K → Outcome V} {out : List (ObjRec V)} (h : saveObj c = ok out) :
    ValidObj out ∧ (objVertices out).length = 100 ∧
      ∀ a b, ObjRec.l a b ∈ out ↔ b = a + 1 ∧ 1 ≤ a ∧ b ≤ 100 := by
  rw [saveObj] at h
  obtain ⟨r, h1, h2⟩ := bind_eq_ok.1 h
  cases h2
  obtain ⟨e, ps, h3, h4⟩ := exportObj_inv h1
  have hv := objVertices_append ps (arr (100 - 1) (fun i => ObjRec.l (i + 0 + 1) (i + 0 + 2)))
    (by intro x hx; obtain ⟨i, _, rfl⟩ := mem_arr.1 hx; trivial)
  refine ⟨?_, by rw [h4, hv, (tab_inv h3).1], fun a b => ?_⟩
  · have := (exSpec_own (exSpec_curve (K := K) (V := V) (N := 100) (by norm_num)) (by norm_num) h1 [] 0
      0).2 ⟨rfl, trivial⟩
    rwa [List.append_nil] at this
  · rw [h4, List.mem_append, mem_arr]
    constructor
    · rintro (hx | ⟨i, hi, hx⟩)
      · obtain ⟨p, _, hp⟩ := List.mem_map.1 hx
        cases hp
      · injection hx with h5 h6
        omega
    · rintro ⟨rfl, h5, h6⟩
      exact Or.inr ⟨a - 1, by omega, by
        rw [show a - 1 + 0 + 1 = a by omega, show a - 1 + 0 + 2 = a + 1 by omega]⟩

/-- C50: every face of the file of a single patch, for any sample counts, has as corners the four samples
of one grid cell; all cells occur and all indices are vertices of the file. -/
theorem C50_single_patch {p : ObjPatch K V} {m n : ℕ} {out : List (ObjRec V)}
    (h : savePatchObj p m n = ok out) :
    (∀ r ∈ out, ∀ i ∈ r.idx, 1 ≤ i ∧ i ≤ (objVertices out).length) ∧
    (∀ a b c d, ObjRec.f a b c d ∈ out ↔ ∃ i j, i + 1 < m ∧ j + 1 < n ∧ a = i * n + j + 1 ∧
      b = (i + 1) * n + j + 1 ∧ c = (i + 1) * n + (j + 1) + 1 ∧ d = i * n + (j + 1) + 1) ∧
    ∀ i j, i < m → j < n → ∃ x, (objVertices out)[i * n + j]? = some x ∧
      p.eval (p.uLo + (p.uHi - p.uLo) * ((i : K) / ((m : K) - 1)))
        (p.vLo + (p.vHi - p.vLo) * ((j : K) / ((n : K) - 1))) = ok x := by
  rw [savePatchObj] at h
  obtain ⟨r, h1, h2⟩ := bind_eq_ok.1 h
  cases h2
  obtain ⟨e, ps, h3, h4⟩ := exportPatchObj_inv h1
  have hv := objVertices_append ps.flatten
    (arr (m - 1) (fun i => arr (n - 1) (fun j => faceOf V n 0 i j))).flatten
    (by intro x hx; obtain ⟨i, j, _, _, rfl⟩ := mem_faces.1 hx; trivial)
  have hl := tab_tab_length h3
  refine ⟨?_, fun a b c d => ?_, fun i j hi hj => ?_⟩
  · intro x hx i hi
    rw [h4, hv, hl]
    rw [h4, List.mem_append] at hx
    rcases hx with hx | hx
    · obtain ⟨y, _, rfl⟩ := List.mem_map.1 hx
      simp [ObjRec.idx] at hi
    · obtain ⟨a, b, ha, hb, rfl⟩ := mem_faces.1 hx
      have := face_range ha hb i hi
      omega
  · rw [h4, List.mem_append, mem_faces]
    constructor
    · rintro (hx | ⟨i, j, hi, hj, hx⟩)
      · obtain ⟨y, _, hy⟩ := List.mem_map.1 hx
        cases hy
      · rw [faceOf] at hx
        injection hx with e1 e2 e3 e4
        exact ⟨i, j, hi, hj, by omega, by omega, by omega, by omega⟩
    · rintro ⟨i, j, hi, hj, e1, e2, e3, e4⟩
      refine Or.inr ⟨i, j, hi, hj, ?_⟩
      rw [faceOf, e1, e2, e3, e4]
      congr 1
  · obtain ⟨x, h5, h6⟩ := tab_tab_get h3 hi hj
    refine ⟨x, by rw [h4, hv, h6], ?_⟩
    obtain ⟨_, _, h7⟩ := bind_eq_ok.1 h5
    exact h7

/-- C50, proved part: the file of at most two curves is valid.  Missing: longer lists, see
`C50_curves_refuted`. -/
theorem C50_curves_partial {cs : List (K → Outcome V)} {out : List (ObjRec V)}
    (h : saveObjs cs = ok out) (hl : cs.length ≤ 2) : ValidObj out := by
  rw [saveObjs] at h
  obtain ⟨r, h1, h2⟩ := bind_eq_ok.1 h
  cases h2
  exact (exportAll_own (exSpec_curve (by norm_num)) (by norm_num) cs 0 h1 0 0).2
    (Or.inr ⟨rfl, Or.inr ⟨rfl, hl⟩⟩)

/-- C50 is false for every list of three or more curves: `export_obj` returns the new offset, and
`save_obj` adds it to the old one. -/
theorem C50_curves_refuted {cs : List (K → Outcome V)} {out : List (ObjRec V)}
    (h : saveObjs cs = ok out) (hl : 3 ≤ cs.length) : ¬ ValidObj out := by
  rw [saveObjs] at h
  obtain ⟨r, h1, h2⟩ := bind_eq_ok.1 h
  cases h2
  intro hv
  rcases (exportAll_own (exSpec_curve (by norm_num)) (by norm_num) cs 0 h1 0 0).1 hv with h3 | h3
  · simp [h3] at hl
  · omega

/-- C50, proved part: the file of at most two patches is valid. -/
theorem C50_patches_partial {ps : List (ObjPatch K V)} {out : List (ObjRec V)}
    (h : savePatchObjs ps = ok out) (hl : ps.length ≤ 2) : ValidObj out := by
  rw [savePatchObjs] at h
  obtain ⟨r, h1, h2⟩ := bind_eq_ok.1 h
  cases h2
  exact (exportAll_own (exSpec_patch (by norm_num) (by norm_num)) (by norm_num) ps 0 h1 0 0).2
    (Or.inr ⟨rfl, Or.inr ⟨rfl, hl⟩⟩)

/-- C50 is false for every list of three or more patches. -/
theorem C50_patches_refuted {ps : List (ObjPatch K V)} {out : List (ObjRec V)}
    (h : savePatchObjs ps = ok out) (hl : 3 ≤ ps.length) : ¬ ValidObj out := by
  rw [savePatchObjs] at h
  obtain ⟨r, h1, h2⟩ := bind_eq_ok.1 h
  cases h2
  intro hv
  rcases (exportAll_own (exSpec_patch (by norm_num) (by norm_num)) (by norm_num) ps 0 h1 0 0).1 hv with
    h3 | h3
  · simp [h3] at hl
  · omega

theorem exportAll_total {C : Type} {ex : C → ℕ → Outcome (List (ObjRec V) × ℕ)} (cs : List C)
    (H : ∀ c ∈ cs, ∀ k, ∃ r, ex c k = ok r) (s : List (ObjRec V) × ℕ) :
    ∃ s', exportAll ex cs s = ok s' := by
  induction cs generalizing s with
  | nil => exact ⟨s, rfl⟩
  | cons c cs ih =>
    obtain ⟨r, h1⟩ := H c List.mem_cons_self s.2
    obtain ⟨s', h2⟩ := ih (fun c hc => H c (List.mem_cons_of_mem _ hc)) (s.1 ++ r.1, s.2 + r.2)
    exact ⟨s', by rw [exportAll, h1, ok_bind, h2]⟩

/-- C50: saving never fails for curves that can be evaluated on `[0, 1]`. -/
theorem C50_total (cs : List (K → Outcome V))
    (H : ∀ c ∈ cs, ∀ i : ℕ, i < 100 → ∃ p, c ((i : K) / ((100 : ℕ) : K)) = ok p) :
    ∃ out, saveObjs cs = ok out := by
  obtain ⟨s', h⟩ := exportAll_total (ex := fun c => exportObj c 100) cs (by
    intro c hc k
    choose g hg using H c hc
    classical
    have h1 := tab_eq (n := 100) (f := fun i : ℕ => do
        let p ← c ((i : K) / ((100 : ℕ) : K))
        pure (ObjRec.v p))
      (g := fun i => if hi : i < 100 then ObjRec.v (g i hi) else .l 0 0)
      (by intro i hi; simp only [hg i hi, ok_bind, pure_eq, dif_pos hi])
    have h2 := tab_eq (n := 100 - 1) (f := fun i => (pure (ObjRec.l (V := V) (i + k + 1) (i + k + 2))))
      (g := fun i => ObjRec.l (i + k + 1) (i + k + 2)) (fun i _ => rfl)
    exact ⟨_, by rw [exportObj, h1, ok_bind, h2, ok_bind, pure_eq]⟩) ([], 0)
  exact ⟨s'.1, by rw [saveObjs, h, ok_bind, pure_eq]⟩

/-- The theorems apply: a file with three segments on the line exists, and it is invalid. -/
example : ∃ out, saveObjs [fun t : ℚ => ok t, fun t => ok (2 * t), fun t => ok (3 * t)] = ok out ∧
    ¬ ValidObj out := by
  obtain ⟨out, h⟩ := C50_total [fun t : ℚ => ok t, fun t => ok (2 * t), fun t => ok (3 * t)] (by
    intro c hc i _
    simp only [List.mem_cons, List.not_mem_nil, or_false] at hc
    rcases hc with rfl | rfl | rfl <;> exact ⟨_, rfl⟩)
  exact ⟨out, h, C50_curves_refuted h (by simp)⟩

/-- A patch file with 2 x 3 samples, spelled out. -/
example : (savePatchObj (⟨fun u v => ok (u + v), 0, 1, 0, 2⟩ : ObjPatch ℚ ℚ) 2 3) =
    ok [.v 0, .v 1, .v 2, .v 1, .v 2, .v 3, .f 1 4 5 2, .f 2 5 6 3] := by
  decide +kernel

/-- C69, proved part: the vertices written for a curve are its points at `i / 100`, `i < 100`.
Missing: the end of the domain, and domains other than `[0, 1]`; see the two refutations. -/
theorem C69_samples_partial {c : K → Outcome V} {out : List (ObjRec V)} (h : saveObj c = ok out)
    {i : ℕ} (hi : i < 100) :
    ∃ x, (objVertices out)[i]? = some x ∧ c ((i : K) / 100) = ok x := by
  rw [saveObj] at h
  obtain ⟨r, h1, h2⟩ := bind_eq_ok.1 h
  cases h2
  obtain ⟨e, ps, h3, h4⟩ := exportObj_inv h1
  have hv := objVertices_append ps (arr (100 - 1) (fun i => ObjRec.l (i + 0 + 1) (i + 0 + 2)))
    (by intro x hx; obtain ⟨i, _, rfl⟩ := mem_arr.1 hx; trivial)
  obtain ⟨x, h5, h6⟩ := (tab_inv h3).2 i hi
  exact ⟨x, by rw [h4, hv, h6], by simpa using h5⟩

/-- C69 is false: the polyline of any injective curve on `[0, 1]` misses the end point `evaluate(1)`. -/
theorem C69_end_refuted {c : ℚ → Outcome V} {out : List (ObjRec V)} (h : saveObj c = ok out)
    (hinj : ∀ s t, 0 ≤ s → s ≤ 1 → 0 ≤ t → t ≤ 1 → c s = c t → s = t) :
    ∀ x ∈ objVertices out, c 1 ≠ ok x := by
  intro x hx hc
  obtain ⟨i, hi, rfl⟩ := List.getElem_of_mem hx
  have hl := (C50_single_curve h).2.1
  obtain ⟨y, h1, h2⟩ := C69_samples_partial h (i := i) (by omega)
  rw [List.getElem?_eq_getElem hi] at h1
  cases h1
  have hi' : (i : ℚ) < 100 := by exact_mod_cast (show i < 100 by omega)
  have hi0 : (0 : ℚ) ≤ i := Nat.cast_nonneg _
  have := hinj 1 ((i : ℚ) / 100) (by norm_num) le_rfl (by positivity)
    (by rw [div_le_one (by norm_num)]; exact hi'.le) (hc.trans h2.symm)
  rw [eq_div_iff (by norm_num)] at this
  linarith

/-- C69 is false: the parameters sampled do not depend on the domain of the curve.  For a domain outside
`[0, 1)` no point of an injective curve is written. -/
theorem C69_domain_refuted {c : ℚ → Outcome V} {out : List (ObjRec V)} (h : saveObj c = ok out)
    {lo hi : ℚ} (hd : hi < 0 ∨ 1 ≤ lo) (hinj : ∀ s t, c s = c t → s = t) :
    ∀ t, lo ≤ t → t ≤ hi → ∀ x ∈ objVertices out, c t ≠ ok x := by
  intro t ht1 ht2 x hx hc
  obtain ⟨i, hi, rfl⟩ := List.getElem_of_mem hx
  have hl := (C50_single_curve h).2.1
  obtain ⟨y, h1, h2⟩ := C69_samples_partial h (i := i) (by omega)
  rw [List.getElem?_eq_getElem hi] at h1
  cases h1
  have hi' : (i : ℚ) < 100 := by exact_mod_cast (show i < 100 by omega)
  have hi0 : (0 : ℚ) ≤ i := Nat.cast_nonneg _
  have := hinj t ((i : ℚ) / 100) (hc.trans h2.symm)
  rw [eq_div_iff (by norm_num)] at this
  rcases hd with hd | hd <;> linarith

/-- The hypotheses of `C69_end_refuted` are met by the unit segment. -/
example : ∃ out, saveObj (fun t : ℚ => ok t) = ok out ∧ ∀ x ∈ objVertices out, x ≠ 1 := by
  obtain ⟨out, h⟩ : ∃ out, saveObj (fun t : ℚ => ok t) = ok out := by
    have : (saveObj (fun t : ℚ => ok t)).isOk = true := by decide +kernel
    cases h : saveObj (fun t : ℚ => ok t) with
    | ok a => exact ⟨a, rfl⟩
    | throw e => rw [h] at this; cases this
    | ub => rw [h] at this; cases this
  refine ⟨out, h, fun x hx hc => ?_⟩
  exact C69_end_refuted h (fun s t _ _ _ _ he => by simpa using he) x hx (by rw [hc])

/-- The hypotheses of `C69_domain_refuted` are met by the segment on `[2, 3]`. -/
example : ∃ out, saveObj (fun t : ℚ => ok t) = ok out ∧
    ∀ t, 2 ≤ t → t ≤ 3 → ∀ x ∈ objVertices out, x ≠ t := by
  obtain ⟨out, h⟩ : ∃ out, saveObj (fun t : ℚ => ok t) = ok out := by
    have : (saveObj (fun t : ℚ => ok t)).isOk = true := by decide +kernel
    cases h : saveObj (fun t : ℚ => ok t) with
    | ok a => exact ⟨a, rfl⟩
    | throw e => rw [h] at this; cases this
    | ub => rw [h] at this; cases this
  refine ⟨out, h, fun t h1 h2 x hx hc => ?_⟩
  exact C69_domain_refuted h (Or.inr (by norm_num)) (fun s t he => by simpa using he) t h1 h2 x hx
    (by rw [hc])

end NS
