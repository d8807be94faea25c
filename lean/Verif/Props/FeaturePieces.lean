import Verif.Props.Features
import Verif.Props.BSpline

/-!
# C72: features of piecewise curves
-/

set_option linter.unusedSectionVars false
set_option linter.unusedSimpArgs false

namespace NS
namespace Features

open Outcome Finset Spec BSpline

/-- The piece on `[a, b]` is searched and `[lower, upper]` covers more than one of its points. -/
structure Overlap (lower upper a b : ℝ) : Prop where
  left : lower < b
  right : a < upper

theorem overlap_norm {lower upper a b : ℝ} (hab : a < b) (hlt : lower < upper)
    (h : Overlap lower upper a b) :
    max ((lower - a) / (b - a)) 0 < min ((upper - a) / (b - a)) 1 := by
  have hd : 0 < b - a := by linarith
  obtain ⟨h1, h2⟩ := h
  rw [max_lt_iff, lt_min_iff, lt_min_iff]
  refine ⟨⟨?_, ?_⟩, ?_, by norm_num⟩
  · rw [div_lt_div_iff_of_pos_right hd]; linarith
  · rw [div_lt_one hd]; linarith
  · apply div_pos <;> linarith

theorem affine_range {lower upper a b x : ℝ} (hab : a < b) :
    (max ((lower - a) / (b - a)) 0 ≤ x ∧ x ≤ min ((upper - a) / (b - a)) 1) ↔
      (lower ≤ x * (b - a) + a ∧ x * (b - a) + a ≤ upper ∧ 0 ≤ x ∧ x ≤ 1) := by
  have hd : 0 < b - a := by linarith
  rw [max_le_iff, le_min_iff, div_le_iff₀ hd, le_div_iff₀ hd]
  constructor
  · rintro ⟨⟨h1, h2⟩, h3, h4⟩; exact ⟨by linarith, by linarith, h2, h4⟩
  · rintro ⟨h1, h2, h3, h4⟩; exact ⟨⟨by linarith, h3⟩, by linarith, h4⟩

/-- The search visits the piece `s` on the part `[lo, up]` of its own parameter range `[0, 1]`. -/
def Searched {α : Type} (lower upper : ℝ) (segs : List α) (bounds : List ℝ) (s : α) (lo up : ℝ) : Prop :=
  ∃ (i : ℕ) (a b : ℝ), segs[i]? = some s ∧ bounds[i]? = some a ∧ bounds[i + 1]? = some b ∧
    Overlap lower upper a b ∧
    lo = max ((lower - a) / (b - a)) 0 ∧ up = min ((upper - a) / (b - a)) 1

theorem Searched.mem {α : Type} {lower upper : ℝ} {segs : List α} {bounds : List ℝ} {s : α} {lo up : ℝ}
    (h : Searched lower upper segs bounds s lo up) : s ∈ segs := by
  obtain ⟨i, a, b, e1, -⟩ := h
  exact List.mem_of_getElem? e1

theorem Searched.lt {α : Type} {lower upper : ℝ} {segs : List α} {bounds : List ℝ} {s : α} {lo up : ℝ}
    (hb : bounds.Pairwise (· < ·)) (hlt : lower < upper)
    (h : Searched lower upper segs bounds s lo up) : lo < up := by
  obtain ⟨i, a, b, -, e2, e3, ho, rfl, rfl⟩ := h
  refine overlap_norm ?_ hlt ho
  obtain ⟨hi, rfl⟩ := List.getElem?_eq_some_iff.mp e2
  obtain ⟨hj, rfl⟩ := List.getElem?_eq_some_iff.mp e3
  exact List.pairwise_iff_getElem.mp hb _ _ hi hj (by omega)

/-- What the search over the pieces reports. -/
def FromPieces {α : Type} (f : α → ℝ → ℝ → Outcome (List ℝ)) (lower upper : ℝ) (segs : List α)
    (bounds : List ℝ) (n : ℕ) (t : ℝ) : Prop :=
  ∃ i < n, ∃ s a b r x, segs[i]? = some s ∧ bounds[i]? = some a ∧ bounds[i + 1]? = some b ∧
    Overlap lower upper a b ∧
    f s (max ((lower - a) / (b - a)) 0) (min ((upper - a) / (b - a)) 1) = ok r ∧ x ∈ r ∧
    t = x * (b - a) + a

/-- C72: the features of the pieces, mapped to the parameter of the curve, in increasing order, provided no
piece meets the interval in a single point. -/
theorem C72_pieces {α : Type} {f : α → ℝ → ℝ → Outcome (List ℝ)} {lower upper : ℝ} {segs : List α}
    {bounds : List ℝ} (hlen : bounds.length = segs.length + 1) (hb : bounds.Pairwise (· < ·))
    (hlo : lower ∉ bounds.tail) (hup : upper ∉ bounds.dropLast)
    (hf : ∀ s lo up, Searched lower upper segs bounds s lo up → ∃ r, f s lo up = ok r) :
    ∃ l, pieceFeatures f lower upper segs bounds = ok l ∧ l.Pairwise (· < ·) ∧
      ∀ t, t ∈ l ↔ FromPieces f lower upper segs bounds segs.length t := by
  have key : ∀ n ≤ segs.length, ∃ res, loop n (fun idx res => do
      let tMin ← rd bounds idx
      let tMax ← rd bounds (idx + 1)
      if tMax < lower ∨ tMin > upper then ok res
      else do
        Outcome.assert (tMax - tMin ≠ 0)
        let normLower := max ((lower - tMin) / (tMax - tMin)) 0
        let normUpper := min ((upper - tMin) / (tMax - tMin)) 1
        let curve ← rd segs idx
        let found ← f curve normLower normUpper
        pure (res ++ found.map fun t => t * (tMax - tMin) + tMin)) ([] : List ℝ) = ok res ∧
      ∀ t, t ∈ res ↔ FromPieces f lower upper segs bounds n t := by
    intro n
    induction n with
    | zero => intro _; exact ⟨[], rfl, fun t => by simp [FromPieces]⟩
    | succ n ih =>
      intro hn
      obtain ⟨res, h1, h2⟩ := ih (by omega)
      have hi : n < bounds.length := by omega
      have hj : n + 1 < bounds.length := by omega
      have hs : n < segs.length := by omega
      have hab : bounds[n] < bounds[n + 1] := List.pairwise_iff_getElem.1 hb n (n + 1) hi hj (by omega)
      have hne1 : bounds[n + 1] ≠ lower := by
        intro h
        apply hlo
        rw [← h, List.mem_iff_getElem]
        exact ⟨n, by simp; omega, by simp⟩
      have hne2 : bounds[n] ≠ upper := by
        intro h
        apply hup
        rw [← h, List.mem_iff_getElem]
        exact ⟨n, by simp; omega, by simp⟩
      have split : ∀ t, FromPieces f lower upper segs bounds (n + 1) t ↔
          FromPieces f lower upper segs bounds n t ∨ (Overlap lower upper bounds[n] bounds[n + 1] ∧
          ∃ r x, f segs[n] (max ((lower - bounds[n]) / (bounds[n + 1] - bounds[n])) 0)
            (min ((upper - bounds[n]) / (bounds[n + 1] - bounds[n])) 1) = ok r ∧ x ∈ r ∧
            t = x * (bounds[n + 1] - bounds[n]) + bounds[n]) := by
        intro t
        constructor
        · rintro ⟨i, hin, s, a, b, r, x, e1, e2, e3, ho, e4, hx, e⟩
          rcases Nat.lt_succ_iff_lt_or_eq.1 hin with hlt | rfl
          · exact Or.inl ⟨i, hlt, s, a, b, r, x, e1, e2, e3, ho, e4, hx, e⟩
          · rw [List.getElem?_eq_getElem hs, Option.some.injEq] at e1
            rw [List.getElem?_eq_getElem hi, Option.some.injEq] at e2
            rw [List.getElem?_eq_getElem hj, Option.some.injEq] at e3
            subst e1 e2 e3
            exact Or.inr ⟨ho, r, x, e4, hx, e⟩
        · rintro (⟨i, hin, h⟩ | ⟨ho, r, x, e4, hx, e⟩)
          · exact ⟨i, by omega, h⟩
          · exact ⟨n, by omega, segs[n], bounds[n], bounds[n + 1], r, x, List.getElem?_eq_getElem hs,
              List.getElem?_eq_getElem hi, List.getElem?_eq_getElem hj, ho, e4, hx, e⟩
      rw [loop, h1, ok_bind, rd_of_lt hi, ok_bind, rd_of_lt hj, ok_bind]
      by_cases hc : bounds[n + 1] < lower ∨ bounds[n] > upper
      · rw [if_pos hc]
        refine ⟨res, rfl, fun t => ?_⟩
        rw [h2, split, or_iff_left]
        rintro ⟨⟨o1, o2⟩, -⟩
        rcases hc with hc | hc
        · exact absurd o1 (not_lt.2 hc.le)
        · exact absurd o2 (not_lt.2 (le_of_lt hc))
      · rw [if_neg hc, assert_true (by linarith), ok_bind, rd_of_lt hs]
        simp only [ok_bind]
        rw [not_or, not_lt, gt_iff_lt, not_lt] at hc
        have ho : Overlap lower upper bounds[n] bounds[n + 1] :=
          ⟨lt_of_le_of_ne hc.1 (Ne.symm hne1), lt_of_le_of_ne hc.2 hne2⟩
        obtain ⟨r, hr⟩ := hf segs[n] _ _ ⟨n, _, _, List.getElem?_eq_getElem hs,
          List.getElem?_eq_getElem hi, List.getElem?_eq_getElem hj, ho, rfl, rfl⟩
        rw [hr, ok_bind, pure_eq]
        refine ⟨_, rfl, fun t => ?_⟩
        rw [List.mem_append, h2, split]
        apply or_congr_right
        rw [List.mem_map]
        constructor
        · rintro ⟨x, hx, e⟩; exact ⟨ho, r, x, hr, hx, e.symm⟩
        · rintro ⟨-, r', x, hr', hx, e⟩
          rw [hr, ok.injEq] at hr'
          exact ⟨x, hr' ▸ hx, e.symm⟩
  obtain ⟨res, h1, h2⟩ := key segs.length le_rfl
  refine ⟨sortUnique res, ?_, sortUnique_increasing _, fun t => ?_⟩
  · rw [pieceFeatures, assert_true hlen, ok_bind, h1]; rfl
  · rw [mem_sortUnique, h2]

/-- C72: the features of the pieces that are found by the searches of C57 lie in the interval. -/
theorem C72_in_range {α : Type} {f : α → ℝ → ℝ → Outcome (List ℝ)} {lower upper : ℝ} {segs : List α}
    {bounds : List ℝ} (hb : bounds.Pairwise (· < ·))
    (hf : ∀ s ∈ segs, ∀ lo up r, lo ≤ up → f s lo up = ok r → ∀ x ∈ r, lo ≤ x ∧ x ≤ up)
    (hlt : lower < upper) {t : ℝ}
    (ht : FromPieces f lower upper segs bounds segs.length t) :
    lower ≤ t ∧ t ≤ upper ∧ ∃ a b, a ∈ bounds ∧ b ∈ bounds ∧ a ≤ t ∧ t ≤ b := by
  obtain ⟨i, -, s, a, b, r, x, e1, e2, e3, ho, e4, hx, rfl⟩ := ht
  have hab : a < b := by
    obtain ⟨hi, rfl⟩ := List.getElem?_eq_some_iff.mp e2
    obtain ⟨hj, rfl⟩ := List.getElem?_eq_some_iff.mp e3
    exact List.pairwise_iff_getElem.mp hb _ _ hi hj (by omega)
  have := (affine_range hab).1 (hf s (List.mem_of_getElem? e1) _ _ r (overlap_norm hab hlt ho).le e4 x hx)
  refine ⟨this.1, this.2.1, a, b, List.mem_of_getElem? e2, List.mem_of_getElem? e3, ?_, ?_⟩
  · nlinarith [this.2.2.1]
  · nlinarith [this.2.2.2]

theorem bezierPieces_plain {V : Type} [AddCommGroup V] [Module ℝ V] (tMax : ℝ) (d : ℕ) (ctrl : List V) :
    ∀ (xs : List ℝ) (i : ℕ) (cur : ℝ) (segs : List (Bezier V)) (bounds : List ℝ)
      (out : List (Bezier V) × List ℝ), (∀ s ∈ segs, s.periodic = false) →
      BSpline.bezierPieces tMax d ctrl xs i cur segs bounds = ok out → ∀ s ∈ out.1, s.periodic = false
  | [], i, cur, segs, bounds, out, hs, h => by
    rw [BSpline.bezierPieces, ok.injEq] at h
    rw [← h]; exact hs
  | x :: xs, i, cur, segs, bounds, out, hs, h => by
    rw [BSpline.bezierPieces] at h
    split at h
    · exact bezierPieces_plain tMax d ctrl xs _ _ _ _ _ hs h
    · split at h
      · rw [ok.injEq] at h
        rw [← h]; exact hs
      · obtain ⟨-, -, h⟩ := bind_eq_ok.1 h
        obtain ⟨q, -, h⟩ := bind_eq_ok.1 h
        refine bezierPieces_plain tMax d ctrl xs _ _ _ _ _ ?_ h
        intro s hm
        rcases List.mem_append.1 hm with hm | hm
        · exact hs s hm
        · rw [List.mem_singleton] at hm; rw [hm]

theorem toBezier_plain {V : Type} [AddCommGroup V] [Module ℝ V] {eps : ℝ} {c : BSpline ℝ V}
    {out : List (Bezier V) × List ℝ} (h : c.toBezier eps = ok out) : ∀ s ∈ out.1, s.periodic = false := by
  unfold BSpline.toBezier at h
  obtain ⟨_, -, h⟩ := bind_eq_ok.1 h
  obtain ⟨_, -, h⟩ := bind_eq_ok.1 h
  obtain ⟨_, -, h⟩ := bind_eq_ok.1 h
  obtain ⟨_, -, h⟩ := bind_eq_ok.1 h
  obtain ⟨_, -, h⟩ := bind_eq_ok.1 h
  obtain ⟨_, -, h⟩ := bind_eq_ok.1 h
  obtain ⟨_, -, h⟩ := bind_eq_ok.1 h
  obtain ⟨_, -, h⟩ := bind_eq_ok.1 h
  obtain ⟨_, -, h⟩ := bind_eq_ok.1 h
  exact bezierPieces_plain _ _ _ _ _ _ _ _ _ (by simp) h

variable {eig : ℕ → (ℕ → ℕ → ℝ) → List ℂ}

/-- C72 for any search that is exact on each piece: nothing is lost, whatever the feature `zero`,
which may depend on the part of the piece that is searched. -/
theorem C72_complete_partial {α : Type} {f : α → ℝ → ℝ → Outcome (List ℝ)}
    {zero : α → ℝ → ℝ → ℝ → Prop} {lower upper : ℝ}
    {segs : List α} {bounds : List ℝ} (hlen : bounds.length = segs.length + 1)
    (hb : bounds.Pairwise (· < ·))
    (hlo : lower ∉ bounds.tail) (hup : upper ∉ bounds.dropLast)
    (hf : ∀ s lo up, Searched lower upper segs bounds s lo up →
      ∃ r, f s lo up = ok r ∧ (∀ x ∈ r, lo ≤ x ∧ x ≤ up) ∧
        ∀ x, lo ≤ x → x ≤ up → zero s lo up x → x ∈ r) :
    ∃ l, pieceFeatures f lower upper segs bounds = ok l ∧ l.Pairwise (· < ·) ∧
      (∀ t ∈ l, lower ≤ t ∧ t ≤ upper) ∧
      ∀ i s a b x, segs[i]? = some s → bounds[i]? = some a → bounds[i + 1]? = some b →
        0 ≤ x → x ≤ 1 → lower ≤ x * (b - a) + a → x * (b - a) + a ≤ upper →
        zero s (max ((lower - a) / (b - a)) 0) (min ((upper - a) / (b - a)) 1) x →
        x * (b - a) + a ∈ l := by
  obtain ⟨l, h1, h2, h3⟩ := C72_pieces hlen hb hlo hup
    (fun s lo up h => (hf s lo up h).imp fun _ h => h.1)
  have hab : ∀ i a b, bounds[i]? = some a → bounds[i + 1]? = some b → a < b := by
    intro i a b e2 e3
    obtain ⟨hi, rfl⟩ := List.getElem?_eq_some_iff.mp e2
    obtain ⟨hj, rfl⟩ := List.getElem?_eq_some_iff.mp e3
    exact List.pairwise_iff_getElem.mp hb _ _ hi hj (by omega)
  refine ⟨l, h1, h2, fun t ht => ?_, ?_⟩
  · obtain ⟨i, -, s, a, b, r, x, e1, e2, e3, ho, hr, hx, rfl⟩ := (h3 t).1 ht
    obtain ⟨r', hr', hin, -⟩ := hf s _ _ ⟨i, a, b, e1, e2, e3, ho, rfl, rfl⟩
    rw [hr, ok.injEq] at hr'
    subst hr'
    have := (affine_range (hab i a b e2 e3)).1 (hin x hx)
    exact ⟨this.1, this.2.1⟩
  · intro i s a b x e1 e2 e3 x0 x1 hl hu hz
    have hi := (List.getElem?_eq_some_iff.mp e1).1
    have hab := hab i a b e2 e3
    have hal : b ≠ lower := by
      intro h
      apply hlo
      rw [← h, List.mem_iff_getElem]
      obtain ⟨hj, e3⟩ := List.getElem?_eq_some_iff.mp e3
      exact ⟨i, by simp; omega, by simpa using e3⟩
    have hau : a ≠ upper := by
      intro h
      apply hup
      rw [← h, List.mem_iff_getElem]
      obtain ⟨hj, e2⟩ := List.getElem?_eq_some_iff.mp e2
      exact ⟨i, by simp; omega, by simpa using e2⟩
    have ho : Overlap lower upper a b := by
      constructor
      · refine lt_of_le_of_ne ?_ (Ne.symm hal)
        nlinarith
      · refine lt_of_le_of_ne ?_ hau
        nlinarith
    obtain ⟨r, g3, -, g4⟩ := hf s _ _ ⟨i, a, b, e1, e2, e3, ho, rfl, rfl⟩
    have hx := (affine_range (lower := lower) (upper := upper) hab).2 ⟨hl, hu, x0, x1⟩
    exact (h3 _).2 ⟨i, hi, s, a, b, r, x, e1, e2, e3, ho, g3, g4 x hx.1 hx.2 hz, rfl⟩

/-- C72: the singularities of a B-spline.  The pieces are those of C20.  Every piece has a well posed
polynomial, and neither end of the interval is an inner knot. -/
theorem C72_bspline_singularities_partial (hE : Roots.ExactEig eig) {high : Bool} {eps : ℝ}
    {c : BSpline ℝ (ℝ × ℝ)} {segs : List (Bezier (ℝ × ℝ))} {bounds : List ℝ}
    (hc : c.toBezier eps = ok (segs, bounds)) (hlen : bounds.length = segs.length + 1)
    (hb : bounds.Pairwise (· < ·)) {lower upper : ℝ} (hlt : lower < upper)
    (hlo : lower ∉ bounds.tail) (hup : upper ∉ bounds.dropLast)
    (hw : ∀ s ∈ segs, ∃ co e, singularityCoeffs high s.ctrl = some co ∧ WellPosed tol co e) :
    ∃ l, bsplineSingularities eig high eps c lower upper = ok l ∧ l.Pairwise (· < ·) ∧
      (∀ t ∈ l, lower ≤ t ∧ t ≤ upper) ∧
      ∀ i s a b x, segs[i]? = some s → bounds[i]? = some a → bounds[i + 1]? = some b →
        0 ≤ x → x ≤ 1 → lower ≤ x * (b - a) + a → x * (b - a) + a ≤ upper →
        s.evaluateDerivative x = ok 0 → x * (b - a) + a ∈ l := by
  obtain ⟨l, h1, h2⟩ := C72_complete_partial (f := computeSingularities eig high)
    (zero := fun s _ _ x => s.evaluateDerivative x = ok 0) hlen hb hlo hup (by
      intro s lo up h
      have hs := h.mem
      replace h := h.lt hb hlt
      obtain ⟨co, e, h1, h2⟩ := hw s hs
      obtain ⟨l, hl, hr, -⟩ := C57_singularities hE h1 h2 h
      exact ⟨l, hl, hr.inRange, fun x a b hz =>
        hr.complete x a b ⟨by rw [toBezier_plain hc s hs]; rfl, hz⟩⟩)
  exact ⟨l, by rw [bsplineSingularities, hc]; exact h1, h2⟩

/-- C72: the inflections of a B-spline of degree at least three, as for singularities. -/
theorem C72_bspline_inflections_partial (hE : Roots.ExactEig eig) {high : Bool} {eps : ℝ}
    {c : BSpline ℝ (ℝ × ℝ)} {segs : List (Bezier (ℝ × ℝ))} {bounds : List ℝ}
    (hc : c.toBezier eps = ok (segs, bounds)) (hlen : bounds.length = segs.length + 1)
    (hb : bounds.Pairwise (· < ·)) {lower upper : ℝ} (hlt : lower < upper)
    (hlo : lower ∉ bounds.tail) (hup : upper ∉ bounds.dropLast)
    (hw : ∀ s ∈ segs, 4 ≤ s.ctrl.length ∧
      ∃ co e, inflectionCoeffs high s.ctrl = some co ∧ WellPosed tol co e) :
    ∃ l, bsplineInflections eig high eps c lower upper = ok l ∧ l.Pairwise (· < ·) ∧
      (∀ t ∈ l, lower ≤ t ∧ t ≤ upper) ∧
      ∀ i s a b x, segs[i]? = some s → bounds[i]? = some a → bounds[i + 1]? = some b →
        0 ≤ x → x ≤ 1 → lower ≤ x * (b - a) + a → x * (b - a) + a ≤ upper →
        (∃ v w, s.evaluateDerivative x = ok v ∧ s.evaluate2ndDerivative x = ok w ∧ cross v w = 0) →
        x * (b - a) + a ∈ l := by
  obtain ⟨l, h1, h2⟩ := C72_complete_partial (f := computeInflections eig high)
    (zero := fun s _ _ x => ∃ v w, s.evaluateDerivative x = ok v ∧ s.evaluate2ndDerivative x = ok w ∧ cross v w = 0)
    hlen hb hlo hup (by
      intro s lo up h
      have hs := h.mem
      replace h := h.lt hb hlt
      obtain ⟨h4, co, e, h1, h2⟩ := hw s hs
      obtain ⟨l, hl, hr, -⟩ := C57_inflections hE h1 h4 h2 h
      exact ⟨l, hl, hr.inRange, fun x a b hz =>
        hr.complete x a b ⟨by rw [toBezier_plain hc s hs]; rfl, hz⟩⟩)
  exact ⟨l, by rw [bsplineInflections, hc]; exact h1, h2⟩

/-- C72: the singularities of a NURBS.  Each piece is consistent with its homogeneous curve. -/
theorem C72_nurbs_singularities_partial (hE : Roots.ExactEig eig) {eps : ℝ}
    {c : NURBS ℝ (ℝ × ℝ)} {segs : List (RationalBezier ℝ (ℝ × ℝ))} {bounds : List ℝ}
    (hc : c.toRationalBezier eps = ok (segs, bounds)) (hlen : bounds.length = segs.length + 1)
    (hb : bounds.Pairwise (· < ·)) {lower upper : ℝ} (hlt : lower < upper)
    (hlo : lower ∉ bounds.tail) (hup : upper ∉ bounds.dropLast)
    (hw : ∀ s ∈ segs, s.init = ok s ∧ s.base.periodic = false ∧
      ∃ co e, ratSingularityCoeffs s.base.ctrl s.weights = some co ∧ WellPosed tol co e) :
    ∃ l, nurbsSingularities eig eps c lower upper = ok l ∧ l.Pairwise (· < ·) ∧
      (∀ t ∈ l, lower ≤ t ∧ t ≤ upper) ∧
      ∀ i s a b x, segs[i]? = some s → bounds[i]? = some a → bounds[i + 1]? = some b →
        0 ≤ x → x ≤ 1 → lower ≤ x * (b - a) + a → x * (b - a) + a ≤ upper →
        s.evaluateDerivative x = ok 0 → x * (b - a) + a ∈ l := by
  obtain ⟨l, h1, h2⟩ := C72_complete_partial (f := ratComputeSingularities eig)
    (zero := fun s _ _ x => s.evaluateDerivative x = ok 0) hlen hb hlo hup (by
      intro s lo up h
      have hs := h.mem
      replace h := h.lt hb hlt
      obtain ⟨h3, h4, co, e, h1, h2⟩ := hw s hs
      obtain ⟨l, hl, hr⟩ := C57_rational_singularities hE h3 h1 h2 h
      exact ⟨l, hl, hr.inRange, fun x a b hz => hr.complete x a b ⟨by rw [h4]; rfl, hz⟩⟩)
  exact ⟨l, by rw [nurbsSingularities, hc]; exact h1, h2⟩

/-- C72: the inflections of a NURBS of degree at least three. -/
theorem C72_nurbs_inflections_partial (hE : Roots.ExactEig eig) {eps : ℝ}
    {c : NURBS ℝ (ℝ × ℝ)} {segs : List (RationalBezier ℝ (ℝ × ℝ))} {bounds : List ℝ}
    (hc : c.toRationalBezier eps = ok (segs, bounds)) (hlen : bounds.length = segs.length + 1)
    (hb : bounds.Pairwise (· < ·)) {lower upper : ℝ} (hlt : lower < upper)
    (hlo : lower ∉ bounds.tail) (hup : upper ∉ bounds.dropLast)
    (hw : ∀ s ∈ segs, s.init = ok s ∧ s.base.periodic = false ∧ 4 ≤ s.base.ctrl.length ∧
      ∃ co e, ratInflectionCoeffs s.base.ctrl s.weights = some co ∧ WellPosed tol co e) :
    ∃ l, nurbsInflections eig eps c lower upper = ok l ∧ l.Pairwise (· < ·) ∧
      (∀ t ∈ l, lower ≤ t ∧ t ≤ upper) ∧
      ∀ i s a b x, segs[i]? = some s → bounds[i]? = some a → bounds[i + 1]? = some b →
        0 ≤ x → x ≤ 1 → lower ≤ x * (b - a) + a → x * (b - a) + a ≤ upper →
        (∃ v w, s.evaluateDerivative x = ok v ∧ s.evaluate2ndDerivative x = ok w ∧ cross v w = 0) →
        x * (b - a) + a ∈ l := by
  obtain ⟨l, h1, h2⟩ := C72_complete_partial (f := ratComputeInflections eig)
    (zero := fun s _ _ x => ∃ v w, s.evaluateDerivative x = ok v ∧ s.evaluate2ndDerivative x = ok w ∧ cross v w = 0)
    hlen hb hlo hup (by
      intro s lo up h
      have hs := h.mem
      replace h := h.lt hb hlt
      obtain ⟨h3, h4, h5, co, e, h1, h2⟩ := hw s hs
      obtain ⟨l, hl, hr⟩ := C57_rational_inflections hE h3 h1 h5 h2 h
      exact ⟨l, hl, hr.inRange, fun x a b hz => hr.complete x a b ⟨by rw [h4]; rfl, hz⟩⟩)
  exact ⟨l, by rw [nurbsInflections, hc]; exact h1, h2⟩

/-- C72: turning angle reduction of a B-spline.  Each piece is searched on its part of the interval; the end
tangents of that part are not negligible and the polynomial of their bisector is well posed.  Every parameter
at which the piece is parallel to the bisector is reported. -/
theorem C72_bspline_turning_angle_partial (hE : Roots.ExactEig eig) {high : Bool} {eps : ℝ}
    {c : BSpline ℝ (ℝ × ℝ)} {segs : List (Bezier (ℝ × ℝ))} {bounds : List ℝ}
    (hc : c.toBezier eps = ok (segs, bounds)) (hlen : bounds.length = segs.length + 1)
    (hb : bounds.Pairwise (· < ·)) {lower upper : ℝ} (hlt : lower < upper)
    (hlo : lower ∉ bounds.tail) (hup : upper ∉ bounds.dropLast)
    (hw : ∀ s lo up, Searched lower upper segs bounds s lo up → ∃ v0 v1 co e,
      s.evaluateDerivative lo = ok v0 ∧ s.evaluateDerivative up = ok v1 ∧
      tol ≤ √(dot v0 v0) ∧ tol ≤ √(dot v1 v1) ∧
      tangentCoeffs high s.ctrl
        (-((√(dot v0 v0))⁻¹ * v0.2 + (√(dot v1 v1))⁻¹ * v1.2) / 2)
        (((√(dot v0 v0))⁻¹ * v0.1 + (√(dot v1 v1))⁻¹ * v1.1) / 2) = some co ∧ WellPosed tol co e) :
    ∃ l, bsplineTurningAngle eig high eps c lower upper = ok l ∧ l.Pairwise (· < ·) ∧
      (∀ t ∈ l, lower ≤ t ∧ t ≤ upper) ∧
      ∀ i s a b x v v0 v1, segs[i]? = some s → bounds[i]? = some a → bounds[i + 1]? = some b →
        0 ≤ x → x ≤ 1 → lower ≤ x * (b - a) + a → x * (b - a) + a ≤ upper →
        s.evaluateDerivative x = ok v →
        s.evaluateDerivative (max ((lower - a) / (b - a)) 0) = ok v0 →
        s.evaluateDerivative (min ((upper - a) / (b - a)) 1) = ok v1 →
        cross v ((√(dot v0 v0))⁻¹ • v0 + (√(dot v1 v1))⁻¹ • v1) = 0 → x * (b - a) + a ∈ l := by
  obtain ⟨l, h1, h2, h3, h4⟩ := C72_complete_partial (f := reduceTurningAngle eig high)
    (zero := fun s lo up x => ∃ v v0 v1, s.evaluateDerivative x = ok v ∧ s.evaluateDerivative lo = ok v0 ∧
      s.evaluateDerivative up = ok v1 ∧ cross v ((√(dot v0 v0))⁻¹ • v0 + (√(dot v1 v1))⁻¹ • v1) = 0)
    hlen hb hlo hup (by
      intro s lo up h
      obtain ⟨v0, v1, co, e, g0, g1, n0, n1, g2, g3⟩ := hw s lo up h
      obtain ⟨l, hl, hr, -⟩ := C57_turning_angle hE (h.lt hb hlt) g0 g1 n0 n1 g2 g3
      refine ⟨l, hl, hr.inRange, fun x a b hz =>
        hr.complete x a b ⟨by rw [toBezier_plain hc s h.mem]; rfl, ?_⟩⟩
      obtain ⟨v, w0, w1, hv, q0, q1, hz⟩ := hz
      rw [g0, ok.injEq] at q0
      rw [g1, ok.injEq] at q1
      rw [← q0, ← q1] at hz
      exact ⟨v, hv, hz⟩)
  exact ⟨l, by rw [bsplineTurningAngle, hc]; exact h1, h2, h3,
    fun i s a b x v v0 v1 e1 e2 e3 x0 x1 hl hu hv q0 q1 hz =>
      h4 i s a b x e1 e2 e3 x0 x1 hl hu ⟨v, v0, v1, hv, q0, q1, hz⟩⟩

/-- C72: turning angle reduction of a NURBS.  As for B-splines, the sum of the end tangents of the part searched
is not negligible either.  Every parameter is reported at which the polynomial curve with the control points of
the piece is parallel to the bisector, and with it, when the weights of the piece are equal, every one at which
the piece is. -/
theorem C72_nurbs_turning_angle_partial (hE : Roots.ExactEig eig) {eps : ℝ}
    {c : NURBS ℝ (ℝ × ℝ)} {segs : List (RationalBezier ℝ (ℝ × ℝ))} {bounds : List ℝ}
    (hc : c.toRationalBezier eps = ok (segs, bounds)) (hlen : bounds.length = segs.length + 1)
    (hb : bounds.Pairwise (· < ·)) {lower upper : ℝ} (hlt : lower < upper)
    (hlo : lower ∉ bounds.tail) (hup : upper ∉ bounds.dropLast)
    (hw : ∀ s lo up, Searched lower upper segs bounds s lo up → s.init = ok s ∧ s.base.periodic = false ∧
      ∃ v0 v1 co e,
      s.evaluateDerivative lo = ok v0 ∧ s.evaluateDerivative up = ok v1 ∧
      tol ≤ √(dot v0 v0) ∧ tol ≤ √(dot v1 v1) ∧ 2 * tol ≤ √(dot (v0 + v1) (v0 + v1)) ∧
      ratTangentCoeffs s.base.ctrl s.weights
        (-((√(dot v0 v0))⁻¹ * v0.2 + (√(dot v1 v1))⁻¹ * v1.2) / 2)
        (((√(dot v0 v0))⁻¹ * v0.1 + (√(dot v1 v1))⁻¹ * v1.1) / 2) = some co ∧ WellPosed tol co e) :
    ∃ l, nurbsTurningAngle eig eps c lower upper = ok l ∧ l.Pairwise (· < ·) ∧
      (∀ t ∈ l, lower ≤ t ∧ t ≤ upper) ∧
      ∀ i s a b x v v0 v1, segs[i]? = some s → bounds[i]? = some a → bounds[i + 1]? = some b →
        0 ≤ x → x ≤ 1 → lower ≤ x * (b - a) + a → x * (b - a) + a ≤ upper →
        (s.base.evaluateDerivative x = ok v ∨
          (∃ w, w ≠ 0 ∧ ∀ y ∈ s.weights, y = w) ∧ s.evaluateDerivative x = ok v) →
        s.evaluateDerivative (max ((lower - a) / (b - a)) 0) = ok v0 →
        s.evaluateDerivative (min ((upper - a) / (b - a)) 1) = ok v1 →
        cross v ((√(dot v0 v0))⁻¹ • v0 + (√(dot v1 v1))⁻¹ • v1) = 0 → x * (b - a) + a ∈ l := by
  obtain ⟨l, h1, h2, h3, h4⟩ := C72_complete_partial (f := ratReduceTurningAngle eig)
    (zero := fun s lo up x => ∃ v v0 v1, (s.base.evaluateDerivative x = ok v ∨
        (∃ w, w ≠ 0 ∧ ∀ y ∈ s.weights, y = w) ∧ s.evaluateDerivative x = ok v) ∧
      s.evaluateDerivative lo = ok v0 ∧
      s.evaluateDerivative up = ok v1 ∧ cross v ((√(dot v0 v0))⁻¹ • v0 + (√(dot v1 v1))⁻¹ • v1) = 0)
    hlen hb hlo hup (by
      intro s lo up h
      obtain ⟨hs, hper, v0, v1, co, e, g0, g1, n0, n1, n2, g2, g3⟩ := hw s lo up h
      obtain ⟨l, hl, hr, hr'⟩ := C57_rational_turning_angle_partial hE hs (h.lt hb hlt) g0 g1 n0 n1 n2 g2 g3
      refine ⟨l, hl, hr.inRange, fun x a b hz => ?_⟩
      obtain ⟨v, w0, w1, hv, q0, q1, hz⟩ := hz
      rw [g0, ok.injEq] at q0
      rw [g1, ok.injEq] at q1
      rw [← q0, ← q1] at hz
      rcases hv with hv | ⟨⟨w, hw0, hwt⟩, hv⟩
      · exact hr.complete x a b ⟨by rw [hper]; rfl, v, hv, hz⟩
      · exact (hr' w hw0 hwt).complete x a b ⟨by rw [hper]; rfl, v, hv, hz⟩)
  exact ⟨l, by rw [nurbsTurningAngle, hc]; exact h1, h2, h3,
    fun i s a b x v v0 v1 e1 e2 e3 x0 x1 hl hu hv q0 q1 hz =>
      h4 i s a b x e1 e2 e3 x0 x1 hl hu ⟨v, v0, v1, hv, q0, q1, hz⟩⟩

/-- A piece that meets the interval in its right end makes the search fail. -/
theorem touching_ub {high : Bool} {eps : ℝ} {c : BSpline ℝ (ℝ × ℝ)}
    {segs : List (Bezier (ℝ × ℝ))} {bounds : List ℝ}
    (hc : c.toBezier eps = ok (segs, bounds)) (hlen : bounds.length = segs.length + 1)
    (hb : bounds.Pairwise (· < ·)) (h4 : ∀ s ∈ segs, s.ctrl.length = 4) {lower upper : ℝ}
    (hlt : lower < upper) (hlo : lower ∈ bounds.tail) :
    bsplineSingularities eig high eps c lower upper = ub := by
  obtain ⟨i, hi, hil⟩ := List.mem_iff_getElem.1 hlo
  rw [List.getElem_tail] at hil
  have hi' : i < segs.length := by simp at hi; omega
  have g : ∀ n ≤ i, loop n (fun idx res => do
      let tMin ← rd bounds idx
      let tMax ← rd bounds (idx + 1)
      if tMax < lower ∨ tMin > upper then ok res
      else do
        Outcome.assert (tMax - tMin ≠ 0)
        let normLower := max ((lower - tMin) / (tMax - tMin)) 0
        let normUpper := min ((upper - tMin) / (tMax - tMin)) 1
        let curve ← rd segs idx
        let found ← computeSingularities eig high curve normLower normUpper
        pure (res ++ found.map fun t => t * (tMax - tMin) + tMin)) ([] : List ℝ) = ok [] := by
    intro n
    induction n with
    | zero => intro _; rfl
    | succ n ih =>
      intro hn
      rw [loop, ih (by omega), ok_bind, rd_of_lt (by omega), ok_bind, rd_of_lt (by omega), ok_bind, if_pos]
      left
      rw [← hil]
      exact List.pairwise_iff_getElem.mp hb _ _ (by omega) (by omega) (by omega)
  have hab : bounds[i] < lower := by
    rw [← hil]; exact List.pairwise_iff_getElem.mp hb _ _ (by omega) (by omega) (by omega)
  have e1 : max ((lower - bounds[i]) / (lower - bounds[i])) 0 = 1 := by
    rw [div_self (by linarith)]; norm_num
  have e2 : min ((upper - bounds[i]) / (lower - bounds[i])) 1 = 1 := by
    apply min_eq_right
    rw [le_div_iff₀ (by linarith)]; linarith
  have hs : computeSingularities eig high segs[i] 1 1 = ub := by
    rw [(C57_fixed_degree (eig := eig) (high := high) (c := segs[i]) 1 1).2.2
      (h4 _ (List.getElem_mem hi')) |>.2, computeSingularities3,
      assert_true (h4 _ (List.getElem_mem hi')), ok_bind, solve]
    have : (singularity3 (colX segs[i].ctrl) (colY segs[i].ctrl)).length - 1 = 1 + 3 := rfl
    simp only [this]
    rw [Roots.find, assert_true (by simp [singularity3]), ok_bind, assert_false (by simp)]
    rfl
  have stop : ∀ n, i < n → loop n (fun idx res => do
      let tMin ← rd bounds idx
      let tMax ← rd bounds (idx + 1)
      if tMax < lower ∨ tMin > upper then ok res
      else do
        Outcome.assert (tMax - tMin ≠ 0)
        let normLower := max ((lower - tMin) / (tMax - tMin)) 0
        let normUpper := min ((upper - tMin) / (tMax - tMin)) 1
        let curve ← rd segs idx
        let found ← computeSingularities eig high curve normLower normUpper
        pure (res ++ found.map fun t => t * (tMax - tMin) + tMin)) ([] : List ℝ) = ub := by
    intro n hn
    induction n with
    | zero => omega
    | succ n ih =>
      rcases Nat.lt_succ_iff_lt_or_eq.1 hn with h | rfl
      · rw [loop, ih h]; rfl
      · rw [loop, g i le_rfl, ok_bind, rd_of_lt (by omega), ok_bind, rd_of_lt (by omega), ok_bind, hil,
          if_neg (by rw [not_or, not_lt, gt_iff_lt, not_lt]; constructor <;> linarith),
          assert_true (by linarith), ok_bind, rd_of_lt hi']
        simp only [ok_bind]
        rw [e1, e2, hs]; rfl
  rw [bsplineSingularities, hc]
  simp only [ok_bind, pieceFeatures]
  rw [assert_true hlen, ok_bind, stop _ hi']; rfl

/-- C72 fails when the interval starts at an inner knot: the piece before it is searched on `[1, 1]`, and the
root finder asserts a proper interval.  This holds for every cubic spline and every eigenvalue
routine. -/
theorem C72_inner_knot_refuted {high : Bool} {eps : ℝ} (heps : 0 ≤ eps) {c : BSpline ℝ (ℝ × ℝ)}
    (hc : WellFormed c 3) (hf : FirstSpan c 3) {lower upper : ℝ} (hlt : lower < upper)
    (h1 : lower ∈ c.knots) (h2 : knot c.knots 3 < lower) (h3 : lower < knot c.knots c.ctrl.length) :
    bsplineSingularities eig high eps c lower upper = ub := by
  obtain ⟨segs, bounds, e1, e2, e3, e4, -, e5, e6⟩ :=
    Props.C20_toBezier_partial heps hc (Or.inl hf)
  refine touching_ub e1 e2 e3 ?_ hlt ?_
  · intro s hs
    obtain ⟨i, hi⟩ := List.mem_iff_getElem?.1 hs
    obtain ⟨-, -, -, -, h, -⟩ := e6 i s hi
    exact h
  · have := (e5 lower).2 ⟨h1, h2.le, h3.le⟩
    match bounds, e4, this with
    | x :: xs, e4, this =>
      rw [List.head?_cons, Option.some.injEq] at e4
      rcases List.mem_cons.1 this with h | h
      · rw [h, e4] at h2; exact absurd h2 (lt_irrefl _)
      · exact h

/-- Concrete case of `C72_inner_knot_refuted`: a cubic spline on `[0, 2]` with one inner knot, searched on
`[1, 2]`. -/
example : bsplineSingularities eig false 0 (BSpline.mk
    [((0 : ℝ), (0 : ℝ)), (1, 1), (2, -1), (3, 0), (4, 1)] [0, 0, 0, 0, 1, 2, 2, 2, 2] false none) 1 2 = ub := by
  refine C72_inner_knot_refuted le_rfl ⟨rfl, Or.inl rfl, by decide, by norm_num, ?_⟩ ?_ (by norm_num)
    (by norm_num) ?_ ?_ <;> norm_num [knot, FirstSpan]

/-- Concrete case of `C72_pieces`. -/
example : ∃ l, pieceFeatures (fun (x : ℝ) lo up => ok (if lo ≤ x ∧ x ≤ up then [x] else [])) (1 / 4) 2
    [1 / 2, 1 / 3] [0, 1, 3] = ok l ∧ l.Pairwise (· < ·) :=
  let ⟨l, h1, h2, _⟩ := C72_pieces
    (f := fun (x : ℝ) lo up => ok (if lo ≤ x ∧ x ≤ up then [x] else []))
    (lower := 1 / 4) (upper := 2) (segs := [1 / 2, 1 / 3]) (bounds := [0, 1, 3])
    rfl (by norm_num) (by norm_num) (by norm_num) (fun _ _ _ _ => ⟨_, rfl⟩)
  ⟨l, h1, h2⟩

/-- Concrete case of `C72_bspline_singularities_partial`: the hypotheses hold for a spline that stops at
`1/2`. -/
example : BSpline.toBezier 0 (BSpline.mk [((0 : ℝ), (0 : ℝ)), (1, 0), (0, 0)] [(0 : ℝ), 0, 0, 1, 1, 1] false none) =
      ok ([Bezier.mk [((0 : ℝ), (0 : ℝ)), (1, 0), (0, 0)] false], [0, 1]) ∧
    ([(0 : ℝ), 1]).Pairwise (· < ·) ∧ (0 : ℝ) ∉ [(0 : ℝ), 1].tail ∧ (1 : ℝ) ∉ [(0 : ℝ), 1].dropLast ∧
    singularityCoeffs false [((0 : ℝ), (0 : ℝ)), (1, 0), (0, 0)] = some [4, -16, 16] := by
  refine ⟨?_, by norm_num, by norm_num, by norm_num, ?_⟩
  · simp [toBezier, degree, BSpline.lower, BSpline.upper, locateSpan, BSpline.multiplicity, raise,
      bezierKnots, bezierPieces, rdI, rd, bypassBefore, multBefore, multAfter, Outcome.assert, seg]
  · norm_num [singularityCoeffs, singularity2, colX, colY]

theorem parabola_wellPosed : WellPosed tol [(√(8 : ℝ))⁻¹ * 4, -((√(8 : ℝ))⁻¹ * 8)] 1 := by
  have h8 : √(8 : ℝ) ≤ 3 := by rw [Real.sqrt_le_left (by norm_num)]; norm_num
  have hpos : 0 < √(8 : ℝ) := Real.sqrt_pos.2 (by norm_num)
  have h3 : (1 : ℝ) / 3 ≤ (√(8 : ℝ))⁻¹ := by
    rw [inv_eq_one_div]; exact one_div_le_one_div_of_le hpos h8
  refine ⟨⟨by norm_num, ?_, ?_⟩, ?_, by norm_num⟩
  · simp only [List.getD_cons_succ, List.getD_cons_zero, abs_neg]
    rw [abs_of_pos (by positivity)]
    rw [tol]; norm_num; linarith
  · intro i h1 h2; simp at h2; omega
  · intro i h
    match i with
    | (n + 2) => simp

theorem parabola_tangents :
    dot ((2 : ℝ), (2 : ℝ)) (2, 2) = 8 ∧ dot ((2 : ℝ), (-2 : ℝ)) (2, -2) = 8 ∧ tol ≤ √(8 : ℝ) ∧
    tangentCoeffs false [((0 : ℝ), (0 : ℝ)), (1, 1), (2, 0)]
      (-((√(8 : ℝ))⁻¹ * 2 + (√(8 : ℝ))⁻¹ * -2) / 2) (((√(8 : ℝ))⁻¹ * 2 + (√(8 : ℝ))⁻¹ * 2) / 2) =
      some [(√(8 : ℝ))⁻¹ * 4, -((√(8 : ℝ))⁻¹ * 8)] := by
  refine ⟨by norm_num [dot], by norm_num [dot], ?_, ?_⟩
  · apply Real.le_sqrt_of_sq_le
    norm_num [tol]
  · simp [tangentCoeffs, tangent2, colX, colY]
    constructor <;> ring

/-- Concrete case of `C72_bspline_turning_angle_partial`: the parabola with control points
`(0,0), (1,1), (2,0)`, which is parallel to the bisector of its end tangents at `1/2`. -/
example (hE : Roots.ExactEig eig) : ∃ l, bsplineTurningAngle eig false 0
    (BSpline.mk [((0 : ℝ), (0 : ℝ)), (1, 1), (2, 0)] [(0 : ℝ), 0, 0, 1, 1, 1] false none) 0 1 = ok l ∧
    1 / 2 ∈ l := by
  have hd : ∀ t : ℝ, (Bezier.mk [((0 : ℝ), (0 : ℝ)), (1, 1), (2, 0)] false).evaluateDerivative t =
      ok (2, 2 - 4 * t) := by
    intro t
    rw [← (Props.C02_degree2 _ _ _ _ t).2.1]
    simp [Bezier.evaluateDerivative2, Bezier.wrap, ok_bind, Outcome.assert, rd, pure_eq]
    constructor <;> ring
  have h0 := hd 0
  have h1 := hd 1
  norm_num at h0 h1
  have hc : BSpline.toBezier 0
      (BSpline.mk [((0 : ℝ), (0 : ℝ)), (1, 1), (2, 0)] [(0 : ℝ), 0, 0, 1, 1, 1] false none) =
      ok ([Bezier.mk [((0 : ℝ), (0 : ℝ)), (1, 1), (2, 0)] false], [0, 1]) := by
    simp [toBezier, degree, BSpline.lower, BSpline.upper, locateSpan, BSpline.multiplicity, raise,
      bezierKnots, bezierPieces, rdI, rd, bypassBefore, multBefore, multAfter, Outcome.assert, seg]
  obtain ⟨l, hl, -, -, h2⟩ := C72_bspline_turning_angle_partial (eig := eig) hE (high := false) (lower := 0)
    (upper := 1) hc rfl (by norm_num) (by norm_num) (by norm_num) (by norm_num) (by
      rintro s lo up ⟨i, a, b, e1, e2, e3, -, rfl, rfl⟩
      match i, e1, e2, e3 with
      | 0, e1, e2, e3 =>
        simp only [List.getElem?_cons_zero, List.getElem?_cons_succ, Option.some.injEq] at e1 e2 e3
        subst e1 e2 e3
        obtain ⟨d0, d1, dt, dc⟩ := parabola_tangents
        refine ⟨(2, 2), (2, -2), _, 1, by norm_num [h0], by norm_num [h1], by rwa [d0], by rwa [d1], ?_,
          parabola_wellPosed⟩
        rw [d0, d1]; exact dc)
  refine ⟨l, hl, ?_⟩
  have := h2 0 _ 0 1 (1 / 2) (2, 0) (2, 2) (2, -2) rfl rfl rfl (by norm_num) (by norm_num) (by norm_num)
    (by norm_num) (by rw [hd]; norm_num) (by norm_num [h0]) (by norm_num [h1]) (by norm_num [cross, dot])
  simpa using this

/-- Concrete case of `C72_nurbs_turning_angle_partial`: the same parabola with all weights `2`. -/
example (hE : Roots.ExactEig eig) : ∃ c : NURBS ℝ (ℝ × ℝ), ∃ l,
    c.base = BSpline.mk [((0 : ℝ), (0 : ℝ)), (1, 1), (2, 0)] [(0 : ℝ), 0, 0, 1, 1, 1] false none ∧
    c.weights = [2, 2, 2] ∧ c.init = ok c ∧
    nurbsTurningAngle eig 0 c 0 1 = ok l ∧ 1 / 2 ∈ l := by
  let s : RationalBezier ℝ (ℝ × ℝ) :=
      ⟨⟨[(0, 0), (1, 1), (2, 0)], false⟩, [2, 2, 2], ⟨[((0, 0), 2), ((2, 2), 2), ((4, 0), 2)], false⟩⟩
  have hs : s.init = ok s := by
    norm_num [s, RationalBezier.init, homogenize, Outcome.assert, ok_bind, pure_eq]
  obtain ⟨d0, d1, dt, dc⟩ := parabola_tangents
  have hd : ∀ t : ℝ, s.evaluateDerivative t = ok (2, 2 - 4 * t) := by
    intro t
    have := (C57_rational_tangent_partial hs (tx := 0) (ty := 0) (co := _) rfl (t := t) rfl).2 2 (by norm_num)
      (by simp [s])
    rw [this, ← (Props.C02_degree2 _ _ _ _ t).2.1]
    simp [Bezier.evaluateDerivative2, Bezier.wrap, ok_bind, Outcome.assert, rd, pure_eq]
    constructor <;> ring
  have h0 := hd 0
  have h1 := hd 1
  norm_num at h0 h1
  let c : NURBS ℝ (ℝ × ℝ) := ⟨BSpline.mk [((0 : ℝ), (0 : ℝ)), (1, 1), (2, 0)] [(0 : ℝ), 0, 0, 1, 1, 1] false none,
    [2, 2, 2], BSpline.mk [(((0 : ℝ), (0 : ℝ)), (2 : ℝ)), ((2, 2), 2), ((4, 0), 2)] [(0 : ℝ), 0, 0, 1, 1, 1] false none⟩
  have hc : c.toRationalBezier 0 = ok ([s], [0, 1]) := by
    simp [c, s, NURBS.toRationalBezier, toBezier, degree, BSpline.lower, BSpline.upper, locateSpan,
      BSpline.multiplicity, raise,
      bezierKnots, bezierPieces, rdI, rd, bypassBefore, multBefore, multAfter, Outcome.assert, seg]
    norm_num [RationalBezier.ofParts, RationalBezier.ofHomogeneous, dehomogenize, RationalBezier.validate,
      Outcome.assert, ok_bind, pure_eq]
  refine ⟨c, ?_⟩
  obtain ⟨l, hl, -, -, h2⟩ := C72_nurbs_turning_angle_partial (eig := eig) hE (lower := 0)
    (upper := 1) hc rfl (by norm_num) (by norm_num) (by norm_num) (by norm_num) (by
      rintro s' lo up ⟨i, a, b, e1, e2, e3, -, rfl, rfl⟩
      match i, e1, e2, e3 with
      | 0, e1, e2, e3 =>
        simp only [List.getElem?_cons_zero, List.getElem?_cons_succ, Option.some.injEq] at e1 e2 e3
        subst e1 e2 e3
        refine ⟨hs, rfl, (2, 2), (2, -2), _, 1, by norm_num [h0], by norm_num [h1], by rwa [d0],
          by rwa [d1], ?_, ?_, parabola_wellPosed⟩
        · apply Real.le_sqrt_of_sq_le
          norm_num [dot, tol]
        · rw [d0, d1, ratTangentCoeffs_eq]; exact dc)
  refine ⟨l, rfl, rfl, ?_, hl, ?_⟩
  · norm_num [c, NURBS.init, homogenize, Outcome.assert, ok_bind, pure_eq]
  · have := h2 0 _ 0 1 (1 / 2) (2, 0) (2, 2) (2, -2) rfl rfl rfl (by norm_num) (by norm_num) (by norm_num)
      (by norm_num) (Or.inr ⟨⟨2, by norm_num, by simp [s]⟩, by rw [hd]; norm_num⟩) (by norm_num [h0])
      (by norm_num [h1]) (by norm_num [cross, dot])
    simpa using this

/-- Concrete case of `C72_nurbs_singularities_partial`: a rational piece with unit weights that stops at `1/2`, the
coefficients computed over the rationals. -/
example : ratSingularityCoeffs [((0 : ℚ), (0 : ℚ)), (1, 0), (0, 0)] [1, 1, 1] = some [4, -16, 16, 0, 0] ∧
    WellPosed tol [4, -16, 16, 0, 0] 2 := by
  refine ⟨by decide +kernel, ⟨⟨by norm_num, ?_, ?_⟩, ?_, by norm_num⟩⟩
  · norm_num [tol]
  · intro i h1 h2
    have h2 : i < 5 := by simp at h2; omega
    have : i = 3 ∨ i = 4 := by omega
    rcases this with rfl | rfl <;> norm_num [tol]
  · intro i h
    match i with
    | 3 => rfl
    | 4 => rfl
    | (n + 5) => simp

end Features
end NS
