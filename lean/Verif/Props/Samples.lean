import Verif.Props.SaveMsh
import Verif.Model.Samples

/-! # C90: recommended numbers of samples -/

set_option linter.unusedSectionVars false

namespace NS
namespace Props

open Outcome Samples

/-- The curve at the bottom has control points. -/
def HasPoints : CurveKind → Prop
  | .bezier _ => True
  | .spline n => n ≠ 0
  | .line => False
  | .circle => False
  | .ellipse => False

/-- No sweep of a curve without control points, also not below offsets. -/
def Sampled : PatchKind → Prop
  | .extrusion c => HasPoints c
  | .revolution c _ => HasPoints c
  | .offset b => Sampled b
  | _ => True

theorem angular_pos (r : ℝ) : 8 ≤ angular r := le_max_left _ _

theorem hasPoints_iff (c : CurveKind) : HasPoints c ↔ 0 < c.numControlPoints := by
  cases c <;> simp [HasPoints, CurveKind.numControlPoints, Nat.pos_iff_ne_zero]

/-- C90: a patch recommends at least one sample in both directions exactly if it is not (an offset of
...) a sweep of a curve without control points. -/
theorem C90_positive_partial (p : PatchKind) : Sampled p ↔ 0 < p.samplesU ∧ 0 < p.samplesV := by
  have h8 : ∀ r, 0 < angular r := fun r => lt_of_lt_of_le (by norm_num) (angular_pos r)
  induction p with
  | extrusion c => simp [Sampled, PatchKind.samplesU, PatchKind.samplesV, hasPoints_iff]
  | revolution c r => simp [Sampled, PatchKind.samplesU, PatchKind.samplesV, hasPoints_iff, h8]
  | offset b ih => simpa [Sampled, PatchKind.samplesU, PatchKind.samplesV] using ih
  | _ => simp [Sampled, PatchKind.samplesU, PatchKind.samplesV, h8]

example : Sampled (.offset (.extrusion (.bezier 3))) := trivial

/-- C90: sweeping a line, circle or ellipse gives a patch that recommends no sample along the profile,
and so does every offset of it. -/
theorem C90_positive_refuted (n : ℕ) :
    (∀ c ∈ [CurveKind.line, .circle, .ellipse],
      (Nat.iterate PatchKind.offset n (.extrusion c)).samplesU = 0 ∧
      ∀ r, (Nat.iterate PatchKind.offset n (.revolution c r)).samplesV = 0) := by
  have hu : ∀ (n : ℕ) (p : PatchKind),
      (Nat.iterate PatchKind.offset n p).samplesU = p.samplesU := by
    intro n
    induction n with
    | zero => exact fun _ => rfl
    | succ n ih => exact fun p => ih p.offset
  have hv : ∀ (n : ℕ) (p : PatchKind),
      (Nat.iterate PatchKind.offset n p).samplesV = p.samplesV := by
    intro n
    induction n with
    | zero => exact fun _ => rfl
    | succ n ih => exact fun p => ih p.offset
  intro c hc
  refine ⟨?_, fun r => ?_⟩
  · rw [hu]
    simp only [List.mem_cons, List.not_mem_nil, or_false] at hc
    rcases hc with rfl | rfl | rfl <;> rfl
  · rw [hv]
    simp only [List.mem_cons, List.not_mem_nil, or_false] at hc
    rcases hc with rfl | rfl | rfl <;> rfl

/-- C90: neighbouring samples of an angular range are at most ten degrees apart, and the number is
the smallest such number above seven. -/
theorem C90_angle (r : ℝ) :
    r / angular r ≤ Real.pi / 18 ∧
    ∀ n : ℕ, 8 ≤ n → r / n ≤ Real.pi / 18 → angular r ≤ n := by
  have hp := Real.pi_pos
  have h8 : (0 : ℝ) < angular r := by
    have := angular_pos r
    exact_mod_cast (by omega : 0 < angular r)
  constructor
  · have h : r / Real.pi * 18 ≤ angular r :=
      le_trans (Nat.le_ceil _) (by exact_mod_cast le_max_right _ _)
    rw [div_le_div_iff₀ h8 (by norm_num)]
    calc r * 18 = (r / Real.pi * 18) * Real.pi := by field_simp
      _ ≤ angular r * Real.pi := mul_le_mul_of_nonneg_right h hp.le
      _ = Real.pi * angular r := mul_comm _ _
  · intro n hn h
    have hn0 : (0 : ℝ) < n := by exact_mod_cast (by omega : 0 < n)
    rw [div_le_div_iff₀ hn0 (by norm_num)] at h
    refine max_le hn (Nat.ceil_le.2 ?_)
    rw [div_mul_eq_mul_div, div_le_iff₀ hp]
    linarith

example : angular (2 * Real.pi) = 36 := by
  have h := Real.pi_pos.ne'
  have : 2 * Real.pi / Real.pi * 18 = ((36 : ℕ) : ℝ) := by field_simp; norm_num
  rw [angular, this, Nat.ceil_natCast]
  rfl

variable {V : Type}

theorem addPatchSampled_total {coord : V → ℕ → ℝ} {dim nu nv tag : ℕ} {p : MshPatchIn ℝ V} (m : Mesh ℝ)
    (hu : nu ≠ 0) (hv : nv ≠ 0) (he : ∀ u v, ∃ x, p.eval u v = ok x) :
    ∃ m', addPatchSampled coord dim m p nu nv tag = ok m' := by
  obtain ⟨m', h⟩ := C52_total (coord := coord) (dim := dim) [.patch p nu nv tag]
    (by intro op hop; rw [List.mem_singleton] at hop; subst hop; exact ⟨hu, hv, he⟩) m
  rw [runMsh] at h
  obtain ⟨m1, h1, _⟩ := bind_eq_ok.1 h
  exact ⟨m1, h1⟩

theorem addCurveSampled_total {coord : V → ℕ → ℝ} {dim N tag : ℕ} {c : MshCurveIn ℝ V} (m : Mesh ℝ)
    (hN : N ≠ 0) (he : ∀ t, ∃ x, c.eval t = ok x) :
    ∃ m', addCurveSampled coord dim m c N tag = ok m' := by
  obtain ⟨m', h⟩ := C52_total (coord := coord) (dim := dim) [.curve c N tag]
    (by intro op hop; rw [List.mem_singleton] at hop; subst hop; exact ⟨hN, he⟩) m
  rw [runMsh] at h
  obtain ⟨m1, h1, _⟩ := bind_eq_ok.1 h
  exact ⟨m1, h1⟩

theorem saveCurves_total {coord : V → ℕ → ℝ} {dim : ℕ} (cs : List (MshCurveIn ℝ V))
    (he : ∀ c ∈ cs, ∀ t, ∃ x, c.eval t = ok x) (tag : ℕ) (m : Mesh ℝ) :
    ∃ m', saveCurves coord dim cs tag m = ok m' := by
  induction cs generalizing tag m with
  | nil => exact ⟨m, rfl⟩
  | cons c cs ih =>
    obtain ⟨m1, h1⟩ := addCurveSampled_total (coord := coord) (dim := dim) (N := 100) (tag := tag) m
      (by norm_num) (he c (by simp))
    rw [saveCurves, h1, ok_bind]
    exact ih (fun c hc => he c (by simp [hc])) _ _

/-- C90: sampled saving succeeds for all curves and patches that can be evaluated, as long as no patch
is a sweep of a curve without control points.  Missing: such sweeps, `C90_save_refuted`. -/
theorem C90_save_partial {coord : V → ℕ → ℝ} {dim : ℕ} (cs : List (MshCurveIn ℝ V))
    (ps : List (MshPatchIn ℝ V × PatchKind))
    (hc : ∀ c ∈ cs, ∀ t, ∃ x, c.eval t = ok x)
    (hp : ∀ p ∈ ps, Sampled p.2 ∧ ∀ u v, ∃ x, p.1.eval u v = ok x) :
    ∃ m, save coord dim cs ps = ok m := by
  obtain ⟨m, h⟩ := saveCurves_total (coord := coord) (dim := dim) cs hc 1 {}
  rw [save, saveSampled, h, ok_bind]
  have key : ∀ (ps : List (MshPatchIn ℝ V × PatchKind)) (tag : ℕ) (m : Mesh ℝ),
      (∀ p ∈ ps, Sampled p.2 ∧ ∀ u v, ∃ x, p.1.eval u v = ok x) →
      ∃ m', savePatches coord dim (ps.map fun p => (p.1, p.2.samplesU, p.2.samplesV)) tag m
        = ok m' := by
    intro ps
    induction ps with
    | nil => exact fun tag m _ => ⟨m, rfl⟩
    | cons p ps ih =>
      intro tag m hp
      obtain ⟨h1, h2⟩ := hp p (by simp)
      obtain ⟨hu, hv⟩ := (C90_positive_partial p.2).1 h1
      obtain ⟨m1, e⟩ := addPatchSampled_total (coord := coord) (dim := dim) (tag := tag)
        (nu := p.2.samplesU * 2) (nv := p.2.samplesV * 2) m (by omega) (by omega) h2
      simp only [List.map_cons, savePatches]
      rw [e, ok_bind]
      exact ih _ _ (fun p hq => hp p (by simp [hq]))
  exact key ps 1 m hp

theorem tab_ub {α : Type} {n : ℕ} {f : ℕ → Outcome α} (h0 : f 0 = ub) (hn : 0 < n) :
    tab n f = ub := by
  induction n with
  | zero => omega
  | succ n ih =>
    rcases Nat.eq_zero_or_pos n with rfl | hp
    · rw [tab, tab, ok_bind, h0]; rfl
    · rw [tab, ih hp]; rfl

theorem addPatchSampled_ub {coord : V → ℕ → ℝ} {dim nu nv tag : ℕ} {p : MshPatchIn ℝ V} (m : Mesh ℝ)
    (h : nu = 0 ∨ nv = 0) : addPatchSampled coord dim m p nu nv tag = ub := by
  unfold addPatchSampled
  refine (congrArg (· >>= _) (tab_ub (tab_ub ?_ (by omega)) (by omega))).trans rfl
  rw [assert_false (by tauto)]
  rfl

/-- C90: sampled saving of any list that ends, whatever comes before, in a patch that is a sweep of a
line, circle or ellipse (or an offset of one) has no defined result: the parameters of the samples
are quotients `0 / 0`. -/
theorem C90_save_refuted {coord : V → ℕ → ℝ} {dim : ℕ} (cs : List (MshCurveIn ℝ V))
    (ps : List (MshPatchIn ℝ V × PatchKind)) (p : MshPatchIn ℝ V × PatchKind)
    (hc : ∀ c ∈ cs, ∀ t, ∃ x, c.eval t = ok x)
    (hp : ∀ q ∈ ps, Sampled q.2 ∧ ∀ u v, ∃ x, q.1.eval u v = ok x) (h : ¬ Sampled p.2) :
    save coord dim cs (ps ++ [p]) = ub := by
  obtain ⟨m, e⟩ := C90_save_partial (coord := coord) (dim := dim) cs ps hc hp
  rw [save, saveSampled] at e ⊢
  obtain ⟨m1, e1, e2⟩ := bind_eq_ok.1 e
  rw [e1, ok_bind, List.map_append]
  have key : ∀ (l : List (MshPatchIn ℝ V × ℕ × ℕ)) (tag : ℕ) (a b : Mesh ℝ)
      (r : MshPatchIn ℝ V × ℕ × ℕ), savePatches coord dim l tag a = ok b →
      r.2.1 = 0 ∨ r.2.2 = 0 → savePatches coord dim (l ++ [r]) tag a = ub := by
    intro l
    induction l with
    | nil =>
      intro tag a b r _ h
      rw [List.nil_append, savePatches, addPatchSampled_ub _ (by omega)]
      rfl
    | cons q l ih =>
      intro tag a b r hb h
      rw [savePatches] at hb
      obtain ⟨c, h1, h2⟩ := bind_eq_ok.1 hb
      rw [List.cons_append, savePatches, h1, ok_bind]
      exact ih _ _ _ _ h2 h
  refine key _ _ _ _ _ e2 ?_
  rw [C90_positive_partial] at h
  simp only
  omega

example : ¬ Sampled (.offset (.extrusion .circle)) := id

end Props
end NS
