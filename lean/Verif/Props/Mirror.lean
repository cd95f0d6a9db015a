import Verif.Props.Bending
import Verif.Lemmas.CatmullRom
import Verif.Lemmas.Interpolation

/-!
# Points read from the other side (C129)
-/

namespace Qlab.Spec

/-- The points seen in a mirror: `x` becomes `c - x`, and the order is reversed. -/
def mirror {V : Type} [Sub V] (c : V) (pts : List (V × V)) : List (V × V) :=
  (pts.map fun p => (c - p.1, p.2)).reverse

/-- Points with slopes seen in a mirror: rising becomes falling. -/
def mirrorSlopes {V : Type} [Neg V] [Sub V] (c : V) (pts : List (V × V × V)) : List (V × V × V) :=
  (pts.map fun p => (c - p.1, p.2.1, -p.2.2)).reverse

end Qlab.Spec

namespace Qlab.Props

open Spec

section

variable {K W : Type} [Field K] [LinearOrder K] [IsStrictOrderedRing K]

theorem mirror_increasing {g : K × W → K × W} {c : K} (hg : ∀ p, (g p).1 = c - p.1) {pts : List (K × W)}
    (hs : StrictlyIncreasing pts) : StrictlyIncreasing (pts.map g).reverse := by
  unfold StrictlyIncreasing at hs ⊢
  rw [List.pairwise_reverse, List.pairwise_map]
  refine hs.imp fun {a b} h => ?_
  rw [hg, hg]
  linarith

omit [LinearOrder K] [IsStrictOrderedRing K] [Field K] in
theorem mirror_tab (g : K × W → K × W) (n : Nat) (p : Nat → K × W) :
    ((tab n p).map g).reverse = tab n fun j => g (p (n - 1 - j)) := by
  apply List.ext_getElem
  · simp
  · intro i h1 h2
    simp

/-- **C129**: linear interpolation of the mirrored points gives the mirrored values. -/
theorem C129_linear (pts : List (K × K)) (hs : StrictlyIncreasing pts) (h2 : 2 ≤ pts.length) (c x : K)
    (hx : InRange pts x) :
    evaluate (Interpolator.linear K) (mirror c pts) (c - x) = evaluate (Interpolator.linear K) pts x := by
  obtain ⟨i, hi, h0, h1⟩ := exists_bracket_raw hs h2 hx
  obtain ⟨n, p, hn, rfl⟩ := exists_tab pts (by intro hc; simp [hc] at h2)
  have hm : StrictlyIncreasing (mirror c (tab n p)) := mirror_increasing (fun _ => rfl) hs
  simp only [length_tab, getElem_tab] at h2 hi h0 h1
  have hlt := NaturalCubic.strict_tab hs (Nat.lt_succ_self i) hi
  unfold mirror at hm ⊢
  rw [mirror_tab] at hm ⊢
  rw [(linear_segment _ hs i (p i).1 (p i).2 (p (i + 1)).1 (p (i + 1)).2 x
      ⟨by rw [List.getElem?_eq_getElem (by simp; omega)]; simp,
        by rw [List.getElem?_eq_getElem (by simp; omega)]; simp⟩ h0 h1).2,
    (linear_segment _ hm (n - 2 - i) (c - (p (i + 1)).1) (p (i + 1)).2 (c - (p i).1) (p i).2 (c - x)
      ⟨by rw [List.getElem?_eq_getElem (by simp; omega)]; simp [show n - 1 - (n - 2 - i) = i + 1 by omega],
        by rw [List.getElem?_eq_getElem (by simp; omega)]; simp [show n - 1 - (n - 2 - i + 1) = i by omega]⟩
      (by linarith) (by linarith)).2]
  have hne : (p (i + 1)).1 - (p i).1 ≠ 0 := sub_ne_zero.2 (ne_of_gt hlt)
  rw [show c - (p i).1 - (c - (p (i + 1)).1) = (p (i + 1)).1 - (p i).1 by ring]
  congr 2
  field_simp
  ring

/-- **C129**: the Hermite spline through the mirrored points, with the mirrored slopes, gives the mirrored values. -/
theorem C129_hermite [FromInt K] [ExactCast K] (pts : List (K × K × K)) (hs : StrictlyIncreasing pts)
    (h2 : 2 ≤ pts.length) (c x : K) (hx : InRange pts x) :
    evaluateHermite (mirrorSlopes c pts) (c - x) = evaluateHermite pts x := by
  obtain ⟨i, hi, h0, h1⟩ := exists_bracket_raw hs h2 hx
  obtain ⟨n, p, hn, rfl⟩ := exists_tab pts (by intro hc; simp [hc] at h2)
  have hm : StrictlyIncreasing (mirrorSlopes c (tab n p)) := mirror_increasing (fun _ => rfl) hs
  have hlt := List.pairwise_iff_getElem.1 hs i (i + 1) (by omega) hi (by omega)
  rw [hermite_segment hs hi h0 h1]
  simp only [length_tab, getElem_tab] at h2 hi h0 h1 hlt ⊢
  unfold mirrorSlopes at hm ⊢
  rw [mirror_tab] at hm ⊢
  have e0 : n - 1 - (n - 2 - i) = i + 1 := by omega
  have e1 : n - 1 - (n - 2 - i + 1) = i := by omega
  rw [hermite_segment hm (i := n - 2 - i) (by simp; omega) (x := c - x) (by simp only [getElem_tab, e0]; linarith)
    (by simp only [getElem_tab, e1]; linarith)]
  simp only [getElem_tab, e0, e1]
  have hne : (p (i + 1)).1 - (p i).1 ≠ 0 := sub_ne_zero.2 (ne_of_gt hlt)
  simp only [hermiteCubic]
  rw [show c - (p i).1 - (c - (p (i + 1)).1) = (p (i + 1)).1 - (p i).1 by ring]
  congr 2
  field_simp
  ring

/-- **C129.** A Catmull-Rom spline through the mirrored points gives the mirrored values on an inner segment if the
neighbours of each of its ends have the same ordinate.  Missing for the full property: all other segments. -/
theorem C129_catmull_rom_partial [FromInt K] [ExactCast K] (pts : List (K × K)) (hs : StrictlyIncreasing pts)
    (i : Nat) (hi : i + 3 < pts.length) (hl : pts[i].2 = pts[i + 2].2) (hr : pts[i + 1].2 = pts[i + 3].2) (c x : K)
    (h0 : pts[i + 1].1 ≤ x) (h1 : x ≤ pts[i + 2].1) :
    evaluate (Interpolator.catmullRom K) (mirror c pts) (c - x) = evaluate (Interpolator.catmullRom K) pts x := by
  obtain ⟨n, p, hn, rfl⟩ := exists_tab pts (by intro hc; simp [hc] at hi)
  have hm : StrictlyIncreasing (mirror c (tab n p)) := mirror_increasing (fun _ => rfl) hs
  rw [catmullRom_segment hs (by omega) (by omega) h0 h1]
  simp only [length_tab, getElem_tab] at hi h0 h1 hl hr
  have hlt := NaturalCubic.strict_tab hs (Nat.lt_succ_self (i + 1)) (by omega)
  unfold mirror at hm ⊢
  rw [mirror_tab] at hm ⊢
  have e0 : n - 1 - (n - 3 - i) = i + 2 := by omega
  have e1 : n - 1 - (n - 3 - i + 1) = i + 1 := by omega
  rw [catmullRom_segment hm (by simp; omega) (i := n - 3 - i) (by simp; omega) (x := c - x)
    (by simp only [getElem_tab, e0]; linarith) (by simp only [getElem_tab, e1]; linarith)]
  have hne : (p (i + 2)).1 - (p (i + 1)).1 ≠ 0 := sub_ne_zero.2 (ne_of_gt hlt)
  have hg : c - (p (i + 1)).1 - (c - (p (i + 2)).1) = (p (i + 2)).1 - (p (i + 1)).1 := by ring
  congr 2
  unfold crSegment
  simp only [getElem_tab, length_tab]
  rw [dif_neg (by omega), dif_neg (by omega), dif_neg (by omega), dif_neg (by omega)]
  simp only [e0, e1, show n - 1 - (n - 3 - i - 1) = i + 3 by omega, show i + 1 + 1 = i + 2 from rfl,
    show i + 1 + 2 = i + 3 from rfl, show n - 1 - (n - 3 - i + 2) = i by omega, Nat.add_sub_cancel, crInner]
  rw [hg, ← hr, hl]
  field_simp
  ring

end

/-- Three points and their mirror image, at 1/2. -/
example : evaluate (Interpolator.linear ℚ) [(-3, 2), (-1, 7), (0, 1)] (0 - 1 / 2) =
    evaluate (Interpolator.linear ℚ) [(0, 1), (1, 7), (3, 2)] (1 / 2) ∧
    evaluateHermite ([(0, 7, 2), (1, 1, -5)] : List (ℚ × ℚ × ℚ)) (1 - 1 / 3) =
      evaluateHermite [(0, 1, 5), (1, 7, -2)] (1 / 3) := by
  have h := C129_linear ([(0, 1), (1, 7), (3, 2)] : List (ℚ × ℚ)) (by unfold StrictlyIncreasing; norm_num) (by simp)
    0 (1 / 2) (by unfold InRange; norm_num)
  have h' := C129_hermite ([(0, 1, 5), (1, 7, -2)] : List (ℚ × ℚ × ℚ)) (by unfold StrictlyIncreasing; norm_num)
    (by simp) 1 (1 / 3) (by unfold InRange; norm_num)
  exact ⟨by simpa [mirror] using h, by simpa [mirrorSlopes] using h'⟩

/-- Four points that go up and down, with uneven steps. -/
example : evaluate (Interpolator.catmullRom ℚ) [(-4, 5), (-3, 1), (-1, 5), (0, 1)] (0 - 2) =
    evaluate (Interpolator.catmullRom ℚ) [(0, 1), (1, 5), (3, 1), (4, 5)] 2 := by
  have h := C129_catmull_rom_partial ([(0, 1), (1, 5), (3, 1), (4, 5)] : List (ℚ × ℚ))
    (by unfold StrictlyIncreasing; norm_num) 0 (by simp) rfl rfl 0 2 (by norm_num) (by norm_num)
  simpa [mirror] using h

/-- A mirrored curve bends as much. -/
theorem bends_mirror {f : ℝ → ℝ} {a b B : ℝ} (c : ℝ) (h : Bends f a b B) :
    Bends (fun x => f (c - x)) (c - b) (c - a) B := by
  obtain ⟨g, ⟨s, hs⟩, hg, rfl⟩ := h
  have hin : ∀ x ∈ Set.Icc (c - b) (c - a), c - x ∈ Set.Icc a b := fun x hx =>
    ⟨by linarith [hx.2], by linarith [hx.1]⟩
  have hd : ∀ x, HasDerivWithinAt (fun z => c - z) (-1) (Set.Icc (c - b) (c - a)) x := fun x => by
    simpa using ((hasDerivAt_id x).const_sub c).hasDerivWithinAt
  refine ⟨fun x => g (c - x), ⟨fun x => -s (c - x), fun x hx => ⟨?_, ?_⟩⟩, ?_, ?_⟩
  · exact ((hs _ (hin x hx)).1.comp x (hd x) hin).congr_deriv (by ring)
  · exact (((hs _ (hin x hx)).2.comp x (hd x) hin).neg).congr_deriv (by ring)
  · exact hg.comp (by fun_prop) hin
  · rw [intervalIntegral.integral_comp_sub_left (fun x => g x ^ 2) c]
    simp

/-- The curve has a slope at every interior point. -/
def Smooth (pts : List (ℝ × ℝ)) : Prop :=
  ∀ i, 0 < i → (hi : i + 1 < pts.length) → DifferentiableAt ℝ (naturalCurve pts) pts[i].1

/-- **C129.** A natural cubic spline through the mirrored points gives the mirrored values if neither curve has a
kink.  Missing for the full property: curves with a kink, see C41. -/
theorem C129_natural_cubic_partial (pts : List (ℝ × ℝ)) (hs : StrictlyIncreasing pts) (h3 : 3 ≤ pts.length) (c : ℝ)
    (hd : Smooth pts) (hd' : Smooth (mirror c pts)) (x : ℝ) (hx : InRange pts x) :
    evaluate (Interpolator.naturalCubic ℝ) (mirror c pts) (c - x) = evaluate (Interpolator.naturalCubic ℝ) pts x := by
  have hm : StrictlyIncreasing (mirror c pts) := mirror_increasing (fun _ => rfl) hs
  have hlen : (mirror c pts).length = pts.length := by simp [mirror]
  have hmem : ∀ q, q ∈ mirror c pts ↔ ∃ r ∈ pts, (c - r.1, r.2) = q := by simp [mirror]
  have first : (mirror c pts)[0].1 = c - pts[pts.length - 1].1 := by simp [mirror]
  have last : (mirror c pts)[(mirror c pts).length - 1].1 = c - pts[0].1 := by
    simp [mirror]
  have through : ∀ (l : List (ℝ × ℝ)), StrictlyIncreasing l → 3 ≤ l.length → ∀ q ∈ l, naturalCurve l q.1 = q.2 := by
    intro l h1 h2 q hq
    simp only [naturalCurve, C40_nodes l h1 h2 q.1 q.2 hq]
  obtain ⟨B, hB, least⟩ := C128_least_partial pts hs h3 hd
  obtain ⟨C, hC, least'⟩ := C128_least_partial (mirror c pts) hm (by omega) hd'
  have h1 := least' (fun x => naturalCurve pts (c - x)) B (fun q hq => by
    obtain ⟨r, hr, rfl⟩ := (hmem q).1 hq
    simpa using through pts hs h3 r hr) (by rw [first, last]; exact bends_mirror c hB)
  have h2 := least (fun x => naturalCurve (mirror c pts) (c - x)) C
    (fun q hq => through _ hm (by omega) _ ((hmem _).2 ⟨q, hq, rfl⟩)) (by
      have := bends_mirror c hC
      rw [first, last] at this
      simpa using this)
  have hx' : InRange (mirror c pts) (c - x) := by
    obtain ⟨⟨p, hp, e1⟩, ⟨q, hq, e2⟩⟩ := hx
    exact ⟨⟨_, (hmem _).2 ⟨q, hq, rfl⟩, by simp only; linarith⟩, ⟨_, (hmem _).2 ⟨p, hp, rfl⟩, by simp only; linarith⟩⟩
  have e := h2.2 (le_antisymm h2.1 h1.1) x hx
  obtain ⟨v, hv⟩ := (C40_domain pts hs h3 x).2.2 hx
  obtain ⟨w, hw⟩ := (C40_domain _ hm (by omega) (c - x)).2.2 hx'
  simp only [naturalCurve, hv, hw] at e
  rw [hv, hw, e]

/-- Three points with both outer ordinates zero. -/
example : evaluate (Interpolator.naturalCubic ℝ) [(-3, 0), (-1, 7), (0, 0)] (0 - 2) =
    evaluate (Interpolator.naturalCubic ℝ) [(0, 0), (1, 7), (3, 0)] 2 := by
  have e : mirror 0 [((0 : ℝ), (0 : ℝ)), (1, 7), (3, 0)] = [(-3, 0), (-1, 7), (0, 0)] := by simp [mirror]
  rw [← e]
  refine C129_natural_cubic_partial _ (by unfold StrictlyIncreasing; norm_num) (by simp) 0 ?_ ?_ 2
    (by unfold InRange; norm_num)
  · intro i h0 hi
    obtain rfl : i = 1 := by simp at hi; omega
    exact (C41_three_points_iff_partial 0 0 1 7 3 0 (by norm_num) (by norm_num)).2 rfl
  · rw [e]
    intro i h0 hi
    obtain rfl : i = 1 := by simp at hi; omega
    exact (C41_three_points_iff_partial (-3) 0 (-1) 7 0 0 (by norm_num) (by norm_num)).2 rfl

/-- **C129 (violated).** A Catmull-Rom spline through mirrored points gives other values. -/
theorem C129_refuted_catmull_rom :
    evaluate (Interpolator.catmullRom ℚ) (mirror 2 [(0, 0), (1, 1), (2, 4)]) (2 - 1 / 2) ≠
      evaluate (Interpolator.catmullRom ℚ) [(0, 0), (1, 1), (2, 4)] (1 / 2) := by
  decide +kernel

/-- **C129 (violated).** A natural cubic spline through mirrored points gives other values, with three points and with
four. -/
theorem C129_refuted_natural_cubic :
    evaluate (Interpolator.naturalCubic ℚ) (mirror 2 [(0, 0), (1, 1), (2, 4)]) (2 - 1 / 2) ≠
      evaluate (Interpolator.naturalCubic ℚ) [(0, 0), (1, 1), (2, 4)] (1 / 2) ∧
    evaluate (Interpolator.naturalCubic ℚ) (mirror 3 [(0, 0), (1, 1), (2, 4), (3, 9)]) (3 - 1 / 2) ≠
      evaluate (Interpolator.naturalCubic ℚ) [(0, 0), (1, 1), (2, 4), (3, 9)] (1 / 2) := by
  decide +kernel

end Qlab.Props
