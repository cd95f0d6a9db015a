import Verif.Props.NaturalCubic
import Verif.Props.CatmullRom
import Verif.Props.Linear
import Verif.Props.Hermite
import Verif.Spec.Curve

/-!
# Interpolation is linear in the data (C83)

Interpolating `a y + b z` gives `a` times the value for `y` plus `b` times the value for `z`.
-/

namespace Qlab

open Spec

namespace TridiagonalMatrix
variable {K : Type} [Field K] (lo di up : Nat → K)

theorem sweepY_combine (a b : K) (f g h : Nat → K) (e : ∀ k, h k = a * f k + b * g k) (i : Nat) :
    sweepY lo di up h i = a * sweepY lo di up f i + b * sweepY lo di up g i := by
  induction i with
  | zero => simp only [sweepY, e]; ring
  | succ i ih => simp only [sweepY, e, ih]; ring

theorem sweepX_combine (a b : K) (f g h : Nat → K) (e : ∀ k, h k = a * f k + b * g k) (m i : Nat) :
    sweepX lo di up h m i = a * sweepX lo di up f m i + b * sweepX lo di up g m i := by
  induction hk : m - i generalizing i with
  | zero =>
    have e' : ∀ u, sweepX lo di up u m i = sweepY lo di up u i := fun u => by
      rw [sweepX, dif_neg (show ¬ i < m by omega)]
    simp only [e', sweepY_combine lo di up a b f g h e]
  | succ k ih =>
    have e' : ∀ u, sweepX lo di up u m i = sweepY lo di up u i - sweepC lo di up i * sweepX lo di up u m (i + 1) :=
      fun u => by rw [sweepX, dif_pos (show i < m by omega)]
    simp only [e', sweepY_combine lo di up a b f g h e, ih (i + 1) (by omega)]
    ring

end TridiagonalMatrix

namespace NaturalCubic
variable {K : Type} [Field K]

theorem curvature_combine (n : Nat) (p q r : Nat → K × K) (a b : K) (hq : ∀ i, (q i).1 = (p i).1)
    (hr : ∀ i, (r i).1 = (p i).1) (e : ∀ i, (r i).2 = a * (p i).2 + b * (q i).2) (i : Nat) :
    curvature n r i = a * curvature n p i + b * curvature n q i := by
  have gq : gap q = gap p := by funext j; simp only [gap, hq]
  have gr : gap r = gap p := by funext j; simp only [gap, hr]
  have hrhs : ∀ k, rhs n r k = a * rhs n p k + b * rhs n q k := by
    intro k
    simp only [rhs, TridiagonalMatrix.rowProduct, cSide, cMain, mEnd, gq, gr, e]
    split_ifs <;> ring
  have hs : ∀ k, solved 6 3 n r k = a * solved 6 3 n p k + b * solved 6 3 n q k := by
    intro k
    have b1 : bSide (6 : K) q = bSide 6 p := by funext j; simp only [bSide, gq]
    have b2 : bSide (6 : K) r = bSide 6 p := by funext j; simp only [bSide, gr]
    have b3 : bMain (3 : K) q = bMain 3 p := by funext j; simp only [bMain, gq]
    have b4 : bMain (3 : K) r = bMain 3 p := by funext j; simp only [bMain, gr]
    unfold solved
    rw [b1, b2, b3, b4]
    split_ifs
    · rw [hrhs]; ring
    · exact TridiagonalMatrix.sweepX_combine _ _ _ a b _ _ _ hrhs _ _
  simp only [curvature, second, hs]
  split_ifs <;> ring

end NaturalCubic

namespace Props
variable {K : Type} [Field K] [LinearOrder K] [IsStrictOrderedRing K] [FromInt K] [ExactCast K]

omit [Field K] [IsStrictOrderedRing K] [FromInt K] [ExactCast K] in
theorem strictlyIncreasing_zip' {xs : List K} (h : xs.Pairwise (· < ·)) (ys : List K) :
    StrictlyIncreasing (xs.zip ys) := by
  unfold StrictlyIncreasing
  rw [List.pairwise_iff_getElem] at h ⊢
  intro i j hi hj hij
  simp only [List.getElem_zip]
  exact h i j _ _ hij

omit [LinearOrder K] [IsStrictOrderedRing K] [FromInt K] [ExactCast K] in
theorem zip_eq_tab (xs ys : List K) (h : xs.length = ys.length) :
    xs.zip ys = tab xs.length fun i => (xs.getD i 0, ys.getD i 0) := by
  apply List.ext_getElem
  · simp [h]
  · intro i h1 h2
    simp only [List.length_zip] at h1
    simp [List.getElem?_eq_getElem (show i < xs.length by omega), List.getElem?_eq_getElem (show i < ys.length by omega)]

omit [IsStrictOrderedRing K] in
theorem inRange_of_value {I : Interpolator K} {n : Nat} (hI : IsShippedInterpolator I n) {pts : List (K × K)}
    (hs : StrictlyIncreasing pts) (hn : n ≤ pts.length) {x v : K} (hv : evaluate I pts x = .ok (.ok v)) :
    InRange pts x := by
  have h1 : ¬ BelowAll pts x ∧ ¬ AboveAll pts x := by
    rcases hI with ⟨rfl, rfl⟩ | ⟨rfl, rfl⟩ | ⟨rfl, rfl⟩
    · have := C35_domain pts hs hn x
      exact ⟨fun h => by simp [this.1 h] at hv, fun h => by simp [this.2.1 h] at hv⟩
    · have := C38_domain pts hs hn x
      exact ⟨fun h => by simp [this.1 h] at hv, fun h => by simp [this.2.1 h] at hv⟩
    · have := C40_domain pts hs hn x
      exact ⟨fun h => by simp [this.1 h] at hv, fun h => by simp [this.2.1 h] at hv⟩
  simpa [InRange, BelowAll, AboveAll] using h1

/-- **C83.** Linear, Catmull-Rom and natural cubic interpolation on one grid `xs`: where the ordinates `ys` give `v` and
the ordinates `zs` give `w`, the ordinates `a y + b z` give `a v + b w`. -/
theorem C83_combination {I : Interpolator K} {n : Nat} (hI : IsShippedInterpolator I n) (xs ys zs : List K)
    (hy : xs.length = ys.length) (hz : xs.length = zs.length) (hn : n ≤ xs.length) (hs : xs.Pairwise (· < ·))
    (a b x v w : K) (hv : evaluate I (xs.zip ys) x = .ok (.ok v)) (hw : evaluate I (xs.zip zs) x = .ok (.ok w)) :
    evaluate I (xs.zip (List.zipWith (fun y z => a * y + b * z) ys zs)) x = .ok (.ok (a * v + b * w)) := by
  have hl : (List.zipWith (fun y z => a * y + b * z) ys zs).length = xs.length := by simp; omega
  have sy := strictlyIncreasing_zip' hs ys
  have sz := strictlyIncreasing_zip' hs zs
  have sc := strictlyIncreasing_zip' hs (List.zipWith (fun y z => a * y + b * z) ys zs)
  have h2 : 2 ≤ xs.length := by rcases hI with ⟨_, rfl⟩ | ⟨_, rfl⟩ | ⟨_, rfl⟩ <;> omega
  obtain ⟨i, hi, h0, h1⟩ := exists_bracket_raw sy (by simp; omega)
    (inRange_of_value hI sy (by simp; omega) hv)
  simp only [List.length_zip] at hi
  simp only [List.getElem_zip] at h0 h1
  have hix : i + 1 < xs.length := by omega
  rcases hI with ⟨rfl, rfl⟩ | ⟨rfl, rfl⟩ | ⟨rfl, rfl⟩
  · have seg : ∀ (us : List K) (hu : us.length = xs.length),
        evaluate (Interpolator.linear K) (xs.zip us) x =
          .ok (.ok (us[i] + (us[i + 1] - us[i]) / (xs[i + 1] - xs[i]) * (x - xs[i]))) := fun us hu =>
      (linear_segment _ (strictlyIncreasing_zip' hs us) i _ _ _ _ x
        ⟨by rw [List.getElem?_eq_getElem (by simp; omega), List.getElem_zip],
         by rw [List.getElem?_eq_getElem (by simp; omega), List.getElem_zip]⟩ h0 h1).2
    rw [seg ys (by omega)] at hv
    rw [seg zs (by omega)] at hw
    obtain rfl := Except.ok.inj (Rust.ok.inj hv)
    obtain rfl := Except.ok.inj (Rust.ok.inj hw)
    rw [seg _ hl]
    simp only [List.getElem_zipWith]
    congr 2
    ring
  · have seg : ∀ (us : List K) (hu : us.length = xs.length),
        evaluate (Interpolator.catmullRom K) (xs.zip us) x =
          .ok (.ok (crSegment (xs.zip us) i (by simp; omega) (by simp; omega) x)) := fun us hu =>
      catmullRom_segment (strictlyIncreasing_zip' hs us) _ _ (by simpa using h0) (by simpa using h1)
    rw [seg ys (by omega)] at hv
    rw [seg zs (by omega)] at hw
    obtain rfl := Except.ok.inj (Rust.ok.inj hv)
    obtain rfl := Except.ok.inj (Rust.ok.inj hw)
    rw [seg _ hl]
    congr 2
    unfold crSegment
    simp only [List.length_zip, hl, ← hy, ← hz, min_self]
    split_ifs
    · simp only [crFirst, List.getElem_zip, List.getElem_zipWith]; ring
    · simp only [crLast, List.getElem_zip, List.getElem_zipWith]; ring
    · simp only [crInner, List.getElem_zip, List.getElem_zipWith]; ring
  · have seg : ∀ (us : List K) (hu : us.length = xs.length),
        evaluate (Interpolator.naturalCubic K) (xs.zip us) x = .ok (.ok (NaturalCubic.cubic (xs.getD i 0) (us.getD i 0)
          (NaturalCubic.curvature xs.length (fun j => (xs.getD j 0, us.getD j 0)) i) (xs.getD (i + 1) 0)
          (us.getD (i + 1) 0) (NaturalCubic.curvature xs.length (fun j => (xs.getD j 0, us.getD j 0)) (i + 1)) x)) := by
      intro us hu
      have ht := zip_eq_tab xs us hu.symm
      have := NaturalCubic.segment (n := xs.length) (p := fun j => (xs.getD j 0, us.getD j 0)) hn
        (ht ▸ strictlyIncreasing_zip' hs us) hix (x := x)
        (by simpa [List.getElem?_eq_getElem (show i < xs.length by omega)] using h0)
        (by simpa [List.getElem?_eq_getElem hix] using h1)
      rw [ht, this]
    rw [seg ys (by omega)] at hv
    rw [seg zs (by omega)] at hw
    obtain rfl := Except.ok.inj (Rust.ok.inj hv)
    obtain rfl := Except.ok.inj (Rust.ok.inj hw)
    rw [seg _ hl]
    have e : ∀ j, (List.zipWith (fun y z => a * y + b * z) ys zs).getD j 0 = a * ys.getD j 0 + b * zs.getD j 0 := by
      intro j
      by_cases hj : j < xs.length
      · simp [List.getElem?_zipWith, List.getElem?_eq_getElem (show j < ys.length by omega),
          List.getElem?_eq_getElem (show j < zs.length by omega)]
      · simp [List.getElem?_zipWith, List.getElem?_eq_none (show ys.length ≤ j by omega),
          List.getElem?_eq_none (show zs.length ≤ j by omega)]
    have hc := NaturalCubic.curvature_combine xs.length (fun j => (xs.getD j 0, ys.getD j 0))
      (fun j => (xs.getD j 0, zs.getD j 0))
      (fun j => (xs.getD j 0, (List.zipWith (fun y z => a * y + b * z) ys zs).getD j 0)) a b
      (fun _ => rfl) (fun _ => rfl) e
    rw [hc, hc, e, e]
    congr 2
    simp only [NaturalCubic.cubic]
    ring

/-- A grid with two sets of ordinates: the combination `2 y - z` at a point of the last segment. -/
example : evaluate (Interpolator.catmullRom ℚ) ([0, 1, 3].zip [1, 4, 2]) 2 = .ok (.ok (67 / 20)) ∧
    evaluate (Interpolator.catmullRom ℚ) ([0, 1, 3].zip [0, 1, 1]) 2 = .ok (.ok (43 / 40)) ∧
    evaluate (Interpolator.catmullRom ℚ) ([0, 1, 3].zip [2, 7, 3]) 2 = .ok (.ok (2 * (67 / 20) + -1 * (43 / 40))) := by
  have h1 : evaluate (Interpolator.catmullRom ℚ) ([0, 1, 3].zip [1, 4, 2]) 2 = .ok (.ok (67 / 20)) := by decide +kernel
  have h2 : evaluate (Interpolator.catmullRom ℚ) ([0, 1, 3].zip [0, 1, 1]) 2 = .ok (.ok (43 / 40)) := by decide +kernel
  refine ⟨h1, h2, ?_⟩
  have := C83_combination (.inr (.inl ⟨rfl, rfl⟩)) [0, 1, 3] [1, 4, 2] [0, 1, 1] rfl rfl (by simp) (by decide) 2 (-1) 2
    _ _ h1 h2
  norm_num at this ⊢
  exact this

omit [IsStrictOrderedRing K] in
/-- **C83.** Hermite interpolation: linear in ordinates and slopes together. -/
theorem C83_hermite (xs : List K) (ys zs : List (K × K)) (hy : xs.length = ys.length) (hz : xs.length = zs.length)
    (hn : 2 ≤ xs.length) (hs : xs.Pairwise (· < ·)) (a b x v w : K)
    (hv : evaluateHermite (xs.zip ys) x = .ok (.ok v)) (hw : evaluateHermite (xs.zip zs) x = .ok (.ok w)) :
    evaluateHermite (xs.zip (List.zipWith (fun y z => (a * y.1 + b * z.1, a * y.2 + b * z.2)) ys zs)) x =
      .ok (.ok (a * v + b * w)) := by
  have inc : ∀ us : List (K × K), StrictlyIncreasing (xs.zip us) := by
    intro us
    unfold StrictlyIncreasing
    have h := hs
    rw [List.pairwise_iff_getElem] at h ⊢
    intro i j hi hj hij
    simp only [List.getElem_zip]
    exact h i j _ _ hij
  have hr : InRange (xs.zip ys) x := by
    have := C37_domain _ (inc ys) (by simp; omega) x
    have h1 : ¬ BelowAll (xs.zip ys) x ∧ ¬ AboveAll (xs.zip ys) x :=
      ⟨fun h => by simp [this.1 h] at hv, fun h => by simp [this.2.1 h] at hv⟩
    simpa [InRange, BelowAll, AboveAll] using h1
  obtain ⟨i, hi, h0, h1⟩ := exists_bracket_raw (inc ys) (by simp; omega) hr
  simp only [List.length_zip] at hi
  simp only [List.getElem_zip] at h0 h1
  have seg : ∀ (us : List (K × K)) (hu : us.length = xs.length),
      evaluateHermite (xs.zip us) x = .ok (.ok (hermiteCubic xs[i] us[i].1 us[i].2 xs[i + 1] us[i + 1].1 us[i + 1].2 x)) := by
    intro us hu
    have := hermite_segment (inc us) (i := i) (by simp; omega) (x := x) (by simpa using h0) (by simpa using h1)
    simpa only [List.getElem_zip] using this
  rw [seg ys (by omega)] at hv
  rw [seg zs (by omega)] at hw
  obtain rfl := Except.ok.inj (Rust.ok.inj hv)
  obtain rfl := Except.ok.inj (Rust.ok.inj hw)
  rw [seg _ (by simp; omega)]
  simp only [List.getElem_zipWith]
  congr 2
  simp only [hermiteCubic]
  ring

example : evaluateHermite (V := ℚ) ([0, 1].zip [(2 * 1 + 3 * 0, 2 * 0 + 3 * 1), (2 * 1 + 3 * 1, 2 * 0 + 3 * 1)]) (1 / 2) =
    .ok (.ok (2 * 1 + 3 * (1 / 2))) :=
  C83_hermite [0, 1] [(1, 0), (1, 0)] [(0, 1), (1, 1)] rfl rfl (by simp) (by decide) 2 3 (1 / 2) 1 (1 / 2)
    (by decide +kernel) (by decide +kernel)

end Props
end Qlab
