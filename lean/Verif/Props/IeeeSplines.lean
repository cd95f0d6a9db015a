import Verif.Lemmas.IeeeError
import Verif.Props.IeeeLinear

/-!
# Hermite and Catmull-Rom splines in the formats of IEEE 754 (C96)
-/

namespace Qlab.Props

open Spec

variable {F : IeeeFormat}

/-! ## Positions and shares -/

/-- The position within a segment. -/
theorem iapprox_position {x₀ x₁ x : Ieee F} {a b z : ℝ} (ha : IsNumber x₀ a) (hb : IsNumber x₁ b) (hz : IsNumber x z)
    (h0 : a ≤ z) (h1 : z ≤ b) (hlt : a < b) (hfit : b - a ≤ F.largest) :
    IApprox 1 ((x - x₀) / (x₁ - x₀)) ((z - a) / (b - a)) 1 3.02 := by
  have n1 := Ieee.sub_number hz ha (by rw [abs_of_nonneg (by linarith)]; linarith)
  have n2 := Ieee.sub_number hb ha (by rw [abs_of_nonneg (by linarith)]; linarith)
  have p2 := F.arith.fl_pos (sub_pos.2 hlt)
  have p1 := F.arith.fl_nonneg (sub_nonneg.2 h0)
  have hle : F.arith.fl (z - a) ≤ F.arith.fl (b - a) := F.arith.mono (by linarith)
  have hq : |F.arith.fl (z - a) / F.arith.fl (b - a)| ≤ 1 := by
    rw [abs_of_nonneg (div_nonneg p1 p2.le)]
    exact (div_le_one p2).2 hle
  have n3 := Ieee.div_round n1 n2 p2.ne' (inScale_one.fits (by linarith))
  have hA := approx_position (A := F.arith) (x₀ := ⟨a, Ieee.fl_of_isNumber ha⟩) (x₁ := ⟨b, Ieee.fl_of_isNumber hb⟩)
    (x := ⟨z, Ieee.fl_of_isNumber hz⟩) h0 h1 ((Fl.lt_iff _ _).2 hlt)
  exact ⟨rounded F (F.arith.fl (z - a) / F.arith.fl (b - a)), n3,
    (hA.underflow (z := F.arith.fl (z - a) / F.arith.fl (b - a)) inScale_one rfl).mono zero_le_one le_rfl (by norm_num)⟩

/-- `h / (h + k)` for two positive differences. -/
theorem iapprox_share {a b c d : Ieee F} {α β γ δ : ℝ} (ha : IsNumber a α) (hb : IsNumber b β) (hc : IsNumber c γ)
    (hd : IsNumber d δ) (h1 : β < α) (h2 : δ < γ) (f1 : α - β ≤ 2 ^ ((F.emax : ℤ) - 1))
    (f2 : γ - δ ≤ 2 ^ ((F.emax : ℤ) - 1)) :
    IApprox 1 ((a - b) / ((a - b) + (c - d))) ((α - β) / ((α - β) + (γ - δ))) 1 4.11 := by
  have e : (2 : ℝ) ^ ((F.emax : ℤ) - 1) + 2 ^ ((F.emax : ℤ) - 1) = 2 ^ F.emax := by
    rw [← two_mul, ← zpow_one_add₀ (by norm_num), ← zpow_natCast]; congr 1; omega
  have hL := F.largest_ge
  have h2p := Binary.zpow_pos' ((F.emax : ℤ) - 1)
  have n1 := Ieee.sub_number ha hb (by rw [abs_of_nonneg (by linarith)]; linarith)
  have n2 := Ieee.sub_number hc hd (by rw [abs_of_nonneg (by linarith)]; linarith)
  have p1 := F.arith.fl_pos (sub_pos.2 h1)
  have p2 := F.arith.fl_pos (sub_pos.2 h2)
  have b1 : F.arith.fl (α - β) ≤ 2 ^ ((F.emax : ℤ) - 1) := by
    have := F.arith.mono f1; rwa [Mag.fl_pow] at this
  have b2 : F.arith.fl (γ - δ) ≤ 2 ^ ((F.emax : ℤ) - 1) := by
    have := F.arith.mono f2; rwa [Mag.fl_pow] at this
  have n3 := Ieee.add_number n1 n2 (by rw [abs_of_nonneg (by linarith)]; linarith)
  have p3 := F.arith.fl_pos (show 0 < F.arith.fl (α - β) + F.arith.fl (γ - δ) by linarith)
  have hle : F.arith.fl (α - β) ≤ F.arith.fl (F.arith.fl (α - β) + F.arith.fl (γ - δ)) := by
    have := F.arith.mono (show F.arith.fl (α - β) ≤ F.arith.fl (α - β) + F.arith.fl (γ - δ) by linarith)
    rwa [F.arith.idem] at this
  have hq : |F.arith.fl (α - β) / F.arith.fl (F.arith.fl (α - β) + F.arith.fl (γ - δ))| ≤ 1 := by
    rw [abs_of_nonneg (div_nonneg p1.le p3.le)]
    exact (div_le_one p3).2 hle
  have n4 := Ieee.div_round n1 n3 p3.ne' (inScale_one.fits (by linarith))
  have hA := approx_share (A := F.arith) (a := ⟨α, Ieee.fl_of_isNumber ha⟩) (b := ⟨β, Ieee.fl_of_isNumber hb⟩)
    (c := ⟨γ, Ieee.fl_of_isNumber hc⟩) (d := ⟨δ, Ieee.fl_of_isNumber hd⟩) ((Fl.lt_iff _ _).2 h1) ((Fl.lt_iff _ _).2 h2)
  exact ⟨rounded F (F.arith.fl (α - β) / F.arith.fl (F.arith.fl (α - β) + F.arith.fl (γ - δ))), n4,
    (hA.underflow (z := F.arith.fl (α - β) / F.arith.fl (F.arith.fl (α - β) + F.arith.fl (γ - δ))) inScale_one rfl).mono
      zero_le_one le_rfl (by norm_num)⟩

/-! ## Hermite -/

/-- A slope times the length of the segment. -/
theorem iapprox_slope {m x₁ x₀ : Ieee F} {μ a b S : ℝ} (hm : IsNumber m μ) (ha : IsNumber x₀ a) (hb : IsNumber x₁ b)
    (hlt : a < b) (hfit : b - a ≤ F.largest) (hS : InScale F S) (h : |μ * (b - a)| ≤ S) :
    IApprox S (m * (x₁ - x₀)) (μ * (b - a)) 1 2.02 := by
  have n1 := Ieee.sub_number hb ha (by rw [abs_of_nonneg (by linarith)]; linarith)
  have hc := ((CloseTo.refl (A := F.arith) ⟨μ, Ieee.fl_of_isNumber hm⟩).mul
    (closeTo_sub ⟨b, Ieee.fl_of_isNumber hb⟩ ⟨a, Ieee.fl_of_isNumber ha⟩) (by norm_num) (by norm_num) (by norm_num)
    (by norm_num)).approx (S := S) (B := 1) (by norm_num) (by simpa using h)
  have hu := F.arith.unit_pos
  have hu1 := F.arith.unit_le
  have hfl := F.arith.err' (b - a)
  have n2 := Ieee.mul_round hm n1 (hS.fits (by
    have hS0 := hS.pos
    rw [abs_mul] at h ⊢
    have h1 : |F.arith.fl (b - a)| ≤ 2 * |b - a| := by
      have := abs_add_le (F.arith.fl (b - a) - (b - a)) (b - a)
      rw [sub_add_cancel] at this
      nlinarith [abs_nonneg (b - a)]
    have := mul_le_mul_of_nonneg_left h1 (abs_nonneg μ)
    nlinarith))
  exact ⟨rounded F (μ * F.arith.fl (b - a)), n2,
    (hc.underflow (z := μ * F.arith.fl (b - a)) hS rfl).mono hS.pos.le le_rfl (by norm_num)⟩

/-- The conversion of integers. -/
noncomputable def ieeeInt (F : IeeeFormat) (n : Int) : Ieee F := Ieee.ofReal F false n

theorem ieeeInt_approx (n : ℤ) (h : |n| ≤ 100) : IApprox 1 (ieeeInt F n) (n : ℝ) (|n| : ℤ) 0 := IApprox.int n h rfl

theorem iapprox_powers {x₀ x₁ x : Ieee F} {a b z : ℝ} (ha : IsNumber x₀ a) (hb : IsNumber x₁ b) (hz : IsNumber x z)
    (h0 : a ≤ z) (h1 : z ≤ b) (hlt : a < b) (hfit : b - a ≤ F.largest) :
    IApprox 1 ((x - x₀) / (x₁ - x₀)) ((z - a) / (b - a)) 1 3.02 ∧
    IApprox 1 ((x - x₀) / (x₁ - x₀) * ((x - x₀) / (x₁ - x₀))) ((z - a) / (b - a) * ((z - a) / (b - a))) 1 7.15 ∧
    IApprox 1 ((x - x₀) / (x₁ - x₀) * ((x - x₀) / (x₁ - x₀)) * ((x - x₀) / (x₁ - x₀)))
      ((z - a) / (b - a) * ((z - a) / (b - a)) * ((z - a) / (b - a))) 1 11.29 := by
  have d1 := iapprox_position ha hb hz h0 h1 hlt hfit
  have d2 := (d1.mul d1 inScale_one (by norm_num [Small]) (by norm_num [Small])).mono (B' := 1) (e' := 7.15)
    (by norm_num) (by norm_num) (by norm_num)
  have d3 := (d2.mul d1 inScale_one (by norm_num [Small]) (by norm_num [Small])).mono (B' := 1) (e' := 11.29)
    (by norm_num) (by norm_num) (by norm_num)
  exact ⟨d1, d2, d3⟩

theorem hermiteExpr_iapprox {x₀ y₀ m₀ x₁ y₁ m₁ x : Ieee F} {a η₀ μ₀ b η₁ μ₁ z S : ℝ} (ha : IsNumber x₀ a)
    (hy0 : IsNumber y₀ η₀) (hm0 : IsNumber m₀ μ₀) (hb : IsNumber x₁ b) (hy1 : IsNumber y₁ η₁) (hm1 : IsNumber m₁ μ₁)
    (hz : IsNumber x z) (h0 : a ≤ z) (h1 : z ≤ b) (hlt : a < b) (hfit : b - a ≤ F.largest) (hS : InScale F S)
    (b0 : |η₀| ≤ S) (b1 : |η₁| ≤ S) (b2 : |μ₀ * (b - a)| ≤ S) (b3 : |μ₁ * (b - a)| ≤ S) :
    IApprox S (hermiteExpr (ieeeInt F) x₀ y₀ m₀ x₁ y₁ m₁ x)
      (hermiteExpr (fun n => (n : ℝ)) a η₀ μ₀ b η₁ μ₁ z) 17 280 := by
  obtain ⟨d1, d2, d3⟩ := iapprox_powers ha hb hz h0 h1 hlt hfit
  have i2 := ieeeInt_approx (F := F) 2 (by norm_num)
  have i2' := ieeeInt_approx (F := F) (-2) (by norm_num)
  have i3 := ieeeInt_approx (F := F) 3 (by norm_num)
  have i3' := ieeeInt_approx (F := F) (-3) (by norm_num)
  have o := IApprox.one (F := F)
  have o' := o.neg
  have z0 := IApprox.zero (F := F) 1
  have f0 := IApprox.exact (S := S) (B := 1) hy0 (by linarith)
  have f1 := IApprox.exact (S := S) (B := 1) hy1 (by linarith)
  have f2 := iapprox_slope hm0 ha hb hlt hfit hS b2
  have f3 := iapprox_slope hm1 ha hb hlt hfit hS b3
  unfold hermiteExpr
  refine IApprox.dot hS (a := 6) (b := 5) (c := 4) (d := 2) (p := 67.2) (q := 65.2) (r := 45.2) (s := 28.2) ?_ ?_ ?_ ?_
    f0 f1 f2 f3 (by norm_num [Small]) (by norm_num) (by norm_num) (by norm_num) (by norm_num)
  · exact IApprox.dot inScale_one d3 d2 d1 o i2 i3' z0 o (by norm_num [Small]) (by norm_num) (by norm_num) (by norm_num)
      (by norm_num)
  · exact IApprox.dot inScale_one d3 d2 d1 o i2' i3 z0 z0 (by norm_num [Small]) (by norm_num) (by norm_num)
      (by norm_num) (by norm_num)
  · exact IApprox.dot inScale_one d3 d2 d1 o o i2' o z0 (by norm_num [Small]) (by norm_num) (by norm_num)
      (by norm_num) (by norm_num)
  · exact IApprox.dot inScale_one d3 d2 d1 o o o' z0 z0 (by norm_num [Small]) (by norm_num) (by norm_num)
      (by norm_num) (by norm_num)

/-! ## Catmull-Rom -/

theorem crPowers_idot {x₀ x₁ x : Ieee F} {α β z S : ℝ} (ha : IsNumber x₀ α) (hb : IsNumber x₁ β) (hz : IsNumber x z)
    (h0 : α ≤ z) (h1 : z ≤ β) (hlt : α < β) (hfit : β - α ≤ F.largest) (hS : InScale F S)
    {v : Vec4 (Ieee F)} {V : Vec4 ℝ} {a b c d p q r s : ℝ} (g1 : IApprox S v.a V.a a p) (g2 : IApprox S v.b V.b b q)
    (g3 : IApprox S v.c V.c c r) (g4 : IApprox S v.d V.d d s)
    (hs : Small a p ∧ Small b q ∧ Small c r ∧ Small d s) (hB : a + b + c + d ≤ 32)
    (he : 11.29 * a + p + (7.15 * b + q) + (3.02 * c + r) + s + 4 * a + 4 * b + 3 * c + 2 * d + 0.8 ≤ 430) :
    IApprox S ((crPowers x₀ x₁ x).dot v) ((crPowers α β z).dot V) 32 430 := by
  obtain ⟨d1, d2, d3⟩ := iapprox_powers ha hb hz h0 h1 hlt hfit
  exact IApprox.dot hS d3 d2 d1 IApprox.one g1 g2 g3 g4 ⟨by norm_num [Small], hs⟩ (by linarith) (by norm_num)
    (by linarith) (by norm_num)

theorem half_le_largest : (2 : ℝ) ^ ((F.emax : ℤ) - 1) ≤ F.largest := by
  refine le_trans ?_ F.largest_ge
  rw [← zpow_natCast]
  exact zpow_le_zpow_right₀ (by norm_num) (by omega)

theorem crFirst_iapprox {x₀ y₀ x₁ y₁ x₂ y₂ x : Ieee F} {a₀ η₀ a₁ η₁ a₂ η₂ z S : ℝ} (n0 : IsNumber x₀ a₀)
    (m0 : IsNumber y₀ η₀) (n1 : IsNumber x₁ a₁) (m1 : IsNumber y₁ η₁) (n2 : IsNumber x₂ a₂) (m2 : IsNumber y₂ η₂)
    (nx : IsNumber x z) (h0 : a₀ ≤ z) (h1 : z ≤ a₁) (hlt : a₀ < a₁) (hlt2 : a₁ < a₂)
    (w1 : a₁ - a₀ ≤ 2 ^ ((F.emax : ℤ) - 1)) (w2 : a₂ - a₁ ≤ 2 ^ ((F.emax : ℤ) - 1)) (hS : InScale F S)
    (b0 : |η₀| ≤ S) (b1 : |η₁| ≤ S) (b2 : |η₂| ≤ S) :
    IApprox S (crFirstExpr x₀ y₀ x₁ y₁ x₂ y₂ x) (crFirstExpr a₀ η₀ a₁ η₁ a₂ η₂ z) 32 430 := by
  have z0 := IApprox.zero (F := F) 1
  have zS := IApprox.zero (F := F) S
  have o := IApprox.one (F := F)
  have o' := o.neg
  have f0 := IApprox.exact (S := S) (B := 1) m0 (by linarith)
  have f1 := IApprox.exact (S := S) (B := 1) m1 (by linarith)
  have f2 := IApprox.exact (S := S) (B := 1) m2 (by linarith)
  have be := iapprox_share n1 n0 n2 n1 hlt hlt2 w1 w2
  have c1 := (o.sub be inScale_one (by norm_num [Small]) (by norm_num [Small])).mono (B' := 2) (e' := 6.21)
    (by norm_num) (by norm_num) (by norm_num)
  have c2 := (o'.add be inScale_one (by norm_num [Small]) (by norm_num [Small])).mono (B' := 2) (e' := 6.21)
    (by norm_num) (by norm_num) (by norm_num)
  unfold crFirstExpr
  refine crPowers_idot n0 n1 nx h0 h1 hlt (le_trans w1 half_le_largest) hS (a := 4) (b := 4) (c := 2) (d := 1)
    (p := 24.2) (q := 24.2) (r := 8.2) (s := 5.2) ?_ ?_ ?_ ?_ (by norm_num [Small]) (by norm_num) (by norm_num)
  · exact IApprox.dot hS z0 c1 o' be zS f0 f1 f2 (by norm_num [Small]) (by norm_num) (by norm_num) (by norm_num) (by norm_num)
  · exact IApprox.dot hS z0 c2 o be.neg zS f0 f1 f2 (by norm_num [Small]) (by norm_num) (by norm_num) (by norm_num)
      (by norm_num)
  · exact IApprox.dot hS z0 o' o z0 zS f0 f1 f2 (by norm_num [Small]) (by norm_num) (by norm_num) (by norm_num) (by norm_num)
  · exact IApprox.dot hS z0 o z0 z0 zS f0 f1 f2 (by norm_num [Small]) (by norm_num) (by norm_num) (by norm_num) (by norm_num)

theorem crLast_iapprox {xp yp x₀ y₀ x₁ y₁ x : Ieee F} {ap ηp a₀ η₀ a₁ η₁ z S : ℝ} (np : IsNumber xp ap)
    (mp : IsNumber yp ηp) (n0 : IsNumber x₀ a₀) (m0 : IsNumber y₀ η₀) (n1 : IsNumber x₁ a₁) (m1 : IsNumber y₁ η₁)
    (nx : IsNumber x z) (h0 : a₀ ≤ z) (h1 : z ≤ a₁) (hlt : a₀ < a₁) (hlt2 : ap < a₀)
    (w1 : a₁ - ap ≤ 2 ^ ((F.emax : ℤ) - 1)) (hS : InScale F S) (bp : |ηp| ≤ S) (b0 : |η₀| ≤ S) (b1 : |η₁| ≤ S) :
    IApprox S (crLastExpr (ieeeInt F) xp yp x₀ y₀ x₁ y₁ x)
      (crLastExpr (fun n => (n : ℝ)) ap ηp a₀ η₀ a₁ η₁ z) 32 430 := by
  have z0 := IApprox.zero (F := F) 1
  have zS := IApprox.zero (F := F) S
  have o := IApprox.one (F := F)
  have o' := o.neg
  have i2 := ieeeInt_approx (F := F) 2 (by norm_num)
  have i2' := ieeeInt_approx (F := F) (-2) (by norm_num)
  have fp := IApprox.exact (S := S) (B := 1) mp (by linarith)
  have f0 := IApprox.exact (S := S) (B := 1) m0 (by linarith)
  have f1 := IApprox.exact (S := S) (B := 1) m1 (by linarith)
  have w0 : a₁ - a₀ ≤ 2 ^ ((F.emax : ℤ) - 1) := by linarith
  have al := iapprox_share n1 n0 n1 np hlt (lt_trans hlt2 hlt) w0 w1
  have c1 := (o'.mul al inScale_one (by norm_num [Small]) (by norm_num [Small])).mono (B' := 1) (e' := 5.23)
    (by norm_num) (by norm_num) (by norm_num)
  have c2 := (i2.mul al inScale_one (by norm_num [Small]) (by norm_num [Small])).mono (B' := 2) (e' := 10.34)
    (by norm_num) (by norm_num) (by norm_num)
  have c3 := (i2.sub c2 inScale_one (by norm_num [Small]) (by norm_num [Small])).mono (B' := 4) (e' := 14.45)
    (by norm_num) (by norm_num) (by norm_num)
  unfold crLastExpr
  refine crPowers_idot n0 n1 nx h0 h1 hlt (le_trans w0 half_le_largest) hS (a := 3) (b := 8) (c := 2) (d := 1)
    (p := 21.2) (q := 54.2) (r := 16.2) (s := 5.2) ?_ ?_ ?_ ?_ (by norm_num [Small]) (by norm_num) (by norm_num)
  · exact IApprox.dot hS al.neg o c1 z0 fp f0 f1 zS (by norm_num [Small]) (by norm_num) (by norm_num) (by norm_num)
      (by norm_num)
  · exact IApprox.dot hS c2 i2' c3 z0 fp f0 f1 zS (by norm_num [Small]) (by norm_num) (by norm_num) (by norm_num)
      (by norm_num)
  · exact IApprox.dot hS al.neg z0 al z0 fp f0 f1 zS (by norm_num [Small]) (by norm_num) (by norm_num) (by norm_num)
      (by norm_num)
  · exact IApprox.dot hS z0 o z0 z0 fp f0 f1 zS (by norm_num [Small]) (by norm_num) (by norm_num) (by norm_num) (by norm_num)

theorem crInner_iapprox {xp yp x₀ y₀ x₁ y₁ x₂ y₂ x : Ieee F} {ap ηp a₀ η₀ a₁ η₁ a₂ η₂ z S : ℝ} (np : IsNumber xp ap)
    (mp : IsNumber yp ηp) (n0 : IsNumber x₀ a₀) (m0 : IsNumber y₀ η₀) (n1 : IsNumber x₁ a₁) (m1 : IsNumber y₁ η₁)
    (n2 : IsNumber x₂ a₂) (m2 : IsNumber y₂ η₂) (nx : IsNumber x z) (h0 : a₀ ≤ z) (h1 : z ≤ a₁) (hlt : a₀ < a₁)
    (hlt2 : ap < a₀) (hlt3 : a₁ < a₂) (w1 : a₁ - ap ≤ 2 ^ ((F.emax : ℤ) - 1)) (w2 : a₂ - a₁ ≤ 2 ^ ((F.emax : ℤ) - 1))
    (hS : InScale F S) (bp : |ηp| ≤ S) (b0 : |η₀| ≤ S) (b1 : |η₁| ≤ S) (b2 : |η₂| ≤ S) :
    IApprox S (crInnerExpr (ieeeInt F) xp yp x₀ y₀ x₁ y₁ x₂ y₂ x)
      (crInnerExpr (fun n => (n : ℝ)) ap ηp a₀ η₀ a₁ η₁ a₂ η₂ z) 32 430 := by
  have z0 := IApprox.zero (F := F) 1
  have o := IApprox.one (F := F)
  have i2 := ieeeInt_approx (F := F) 2 (by norm_num)
  have i2' := ieeeInt_approx (F := F) (-2) (by norm_num)
  have i3 := ieeeInt_approx (F := F) 3 (by norm_num)
  have fp := IApprox.exact (S := S) (B := 1) mp (by linarith)
  have f0 := IApprox.exact (S := S) (B := 1) m0 (by linarith)
  have f1 := IApprox.exact (S := S) (B := 1) m1 (by linarith)
  have f2 := IApprox.exact (S := S) (B := 1) m2 (by linarith)
  have w0 : a₁ - a₀ ≤ 2 ^ ((F.emax : ℤ) - 1) := by linarith
  have al := iapprox_share n1 n0 n1 np hlt (lt_trans hlt2 hlt) w0 w1
  have be := iapprox_share n1 n0 n2 n1 hlt hlt3 w0 w2
  have c1 := (i2.sub be inScale_one (by norm_num [Small]) (by norm_num [Small])).mono (B' := 3) (e' := 7.22)
    (by norm_num) (by norm_num) (by norm_num)
  have c2 := (i2'.add al inScale_one (by norm_num [Small]) (by norm_num [Small])).mono (B' := 3) (e' := 7.22)
    (by norm_num) (by norm_num) (by norm_num)
  have c3 := (i2.mul al inScale_one (by norm_num [Small]) (by norm_num [Small])).mono (B' := 2) (e' := 10.34)
    (by norm_num) (by norm_num) (by norm_num)
  have c4 := (be.sub i3 inScale_one (by norm_num [Small]) (by norm_num [Small])).mono (B' := 4) (e' := 8.22)
    (by norm_num) (by norm_num) (by norm_num)
  have c5 := (i3.sub c3 inScale_one (by norm_num [Small]) (by norm_num [Small])).mono (B' := 5) (e' := 15.45)
    (by norm_num) (by norm_num) (by norm_num)
  unfold crInnerExpr
  refine crPowers_idot n0 n1 nx h0 h1 hlt (le_trans w0 half_le_largest) hS (a := 8) (b := 12) (c := 2) (d := 1)
    (p := 51.2) (q := 80.2) (r := 16.2) (s := 5.2) ?_ ?_ ?_ ?_ (by norm_num [Small]) (by norm_num) (by norm_num)
  · exact IApprox.dot hS al.neg c1 c2 be fp f0 f1 f2 (by norm_num [Small]) (by norm_num) (by norm_num) (by norm_num)
      (by norm_num)
  · exact IApprox.dot hS c3 c4 c5 be.neg fp f0 f1 f2 (by norm_num [Small]) (by norm_num) (by norm_num) (by norm_num)
      (by norm_num)
  · exact IApprox.dot hS al.neg z0 al z0 fp f0 f1 f2 (by norm_num [Small]) (by norm_num) (by norm_num) (by norm_num)
      (by norm_num)
  · exact IApprox.dot hS z0 o z0 z0 fp f0 f1 f2 (by norm_num [Small]) (by norm_num) (by norm_num) (by norm_num) (by norm_num)

/-! ## The value computed from the index found -/

section
variable {V : Type} [Zero V] [One V] [Neg V] [Add V] [Sub V] [Mul V] [Div V] [LT V] [DecidableLT V] [LE V]
  [DecidableLE V] [FromInt V]

/-- `hermite_eval` without an assumption on the order. -/
theorem hermite_eval_of (k : Int → V) (hk : ∀ n, FromInt.fromInt (V := V) n = some (k n)) {pts : List (V × V × V)}
    (hirr : ∀ p ∈ pts, ¬ p.1 < p.1) (hnd : NeverDecreasing pts) {i : Nat} {x₀ y₀ m₀ x₁ y₁ m₁ x : V}
    (e0 : pts[i]? = some (x₀, y₀, m₀)) (e1 : pts[i + 1]? = some (x₁, y₁, m₁))
    (hf : findIndexAtLeftBoundary (pts.map fun p => Point2DWithSlope.new p.1 p.2.1 p.2.2) x = .ok i) :
    evaluateHermite pts x = .ok (.ok (hermiteExpr k x₀ y₀ m₀ x₁ y₁ m₁ x)) := by
  obtain ⟨hi, a1⟩ := List.getElem?_eq_some_iff.1 e1
  have hI : ∀ n, fromI8 V n = .ok (k n) := by intro n; unfold fromI8; rw [hk]; rfl
  have f0 : Rust.index (pts.map fun p => Point2DWithSlope.new p.1 p.2.1 p.2.2) i = .ok ⟨⟨x₀, y₀⟩, m₀⟩ :=
    Rust.index_of_eq (by simp [e0, Point2DWithSlope.new])
  have f1 : Rust.index (pts.map fun p => Point2DWithSlope.new p.1 p.2.1 p.2.2) (i + 1) = .ok ⟨⟨x₁, y₁⟩, m₁⟩ :=
    Rust.index_of_eq (by simp [e1, Point2DWithSlope.new])
  cases pts with
  | nil => simp at hi
  | cons p ps =>
    have hc := (Hermite.collect_eq p.1 p.2 (p :: ps)).1
      ((neverDecreasing_cons_self' p ps (hirr p List.mem_cons_self)).2 hnd)
    unfold evaluateHermite Hermite.tryNew
    simp only [Rust.index_of_lt (l := p :: ps) (i := 0) (by simp), List.getElem_cons_zero, Rust.ok_bind, hc, hI,
      Rust.pure_eq]
    unfold Hermite.tryValue
    simp only [hf, f0, f1]
    rfl

/-- `catmullRom_eval` without an assumption on the order. -/
theorem catmullRom_eval_of (k : Int → V) (hk : ∀ n, FromInt.fromInt (V := V) n = some (k n)) {pts : List (V × V)}
    (hirr : ∀ p ∈ pts, ¬ p.1 < p.1) (hnd : NeverDecreasing pts) (h3 : 3 ≤ pts.length) {i : Nat}
    (hi : i + 1 < pts.length) {x : V}
    (hf : findIndexAtLeftBoundary (pts.map fun p => (⟨p.1, p.2⟩ : Point2D V)) x = .ok i) :
    evaluate (Interpolator.catmullRom V) pts x = .ok (.ok (
      if h : i = 0 then crFirstExpr pts[0].1 pts[0].2 pts[1].1 pts[1].2 pts[2].1 pts[2].2 x
      else if hl : i + 2 = pts.length then
        crLastExpr k pts[i - 1].1 pts[i - 1].2 pts[i].1 pts[i].2 pts[i + 1].1 pts[i + 1].2 x
      else crInnerExpr k pts[i - 1].1 pts[i - 1].2 pts[i].1 pts[i].2 pts[i + 1].1 pts[i + 1].2
        pts[i + 2].1 pts[i + 2].2 x)) := by
  have hI : ∀ n, fromI8 V n = .ok (k n) := by intro n; unfold fromI8; rw [hk]; rfl
  have idx : ∀ j (hj : j < pts.length), Rust.index (pts.map fun p => (⟨p.1, p.2⟩ : Point2D V)) j =
      .ok ⟨pts[j].1, pts[j].2⟩ := by
    intro j hj
    rw [Rust.index_of_lt (by simpa using hj)]
    simp
  have hfit : evaluate (Interpolator.catmullRom V) pts x = CatmullRom.tryValue ⟨pts.map fun p => ⟨p.1, p.2⟩⟩ x := by
    clear hf idx
    cases pts with
    | nil => simp at h3
    | cons p ps =>
      have hc := (CatmullRom.collect_eq p.1 p.2 (p :: ps)).1
        ((neverDecreasing_cons_self' p ps (hirr p List.mem_cons_self)).2 hnd)
      unfold evaluate Interpolator.catmullRom CatmullRom.tryFit
      simp only [if_neg (show ¬ (p :: ps).length < 3 by omega),
        Rust.index_of_lt (l := p :: ps) (i := 0) (by simp), List.getElem_cons_zero, Rust.ok_bind, hc, Rust.pure_eq]
  rw [hfit]
  unfold CatmullRom.tryValue
  simp only [hf, idx i (by omega), idx (i + 1) hi, Rust.ok_bind, List.length_map]
  by_cases h0 : i = 0
  · subst h0
    simp only [idx 2 (by omega), Rust.ok_bind, if_true, dif_pos, Nat.zero_add]
    rfl
  · simp only [h0, if_false, dite_false]
    by_cases hl : i + 2 = pts.length
    · simp only [hl, if_true, dite_true, idx (i - 1) (by omega), Rust.ok_bind, hI]
      rfl
    · simp only [hl, if_false, dite_false, idx (i - 1) (by omega), idx (i + 2) (by omega), Rust.ok_bind, hI]
      rfl

end

/-- Finite data are represented by real data. -/
theorem forall₂_get {α β : Type} {R : α → β → Prop} {as : List α} {bs : List β} (h : List.Forall₂ R as bs) (i : Nat)
    (ha : i < as.length) (hb : i < bs.length) : R as[i] bs[i] := h.get ha hb

theorem ieee_lt_irrefl {a : Ieee F} {r : ℝ} (h : IsNumber a r) : ¬ a < a := fun hc =>
  lt_irrefl _ ((Ieee.lt_number h h).1 hc)

/-- Data whose real values increase strictly do not decrease as data of the format. -/
theorem neverDecreasing_of_reals {W X : Type} {R : W → X → Prop} {pts : List (Ieee F × W)} {qs : List (ℝ × X)}
    (h : List.Forall₂ (fun p q => IsNumber p.1 q.1 ∧ R p.2 q.2) pts qs) (hs : StrictlyIncreasing qs) :
    NeverDecreasing pts := by
  unfold NeverDecreasing
  rw [List.isChain_iff_getElem]
  intro i hi
  have hl := h.length_eq
  have h0 := (forall₂_get h i (by omega) (by omega)).1
  have h1 := (forall₂_get h (i + 1) (by omega) (by omega)).1
  rw [Ieee.lt_number h1 h0]
  exact not_lt.2 (le_of_lt (List.pairwise_iff_getElem.1 hs i (i + 1) (by omega) (by omega) (by omega)))

/-- The index found among data of the format is the one found among their real values. -/
theorem findIndex_reals {P Q : Type} [HasX P (Ieee F)] [HasX Q ℝ] {as : List P} {bs : List Q}
    (h : List.Forall₂ (fun p q => IsNumber (HasX.x p : Ieee F) (HasX.x q : ℝ)) as bs)
    {x : Ieee F} {z : ℝ} (hx : IsNumber x z) {i : Nat} (hf : findIndexAtLeftBoundary bs z = .ok i) :
    findIndexAtLeftBoundary as x = .ok i := by
  have h1 : ∀ i, findIndexAtLeftBoundary as x = .ok i ↔
      findIndexAtLeftBoundary (as.map fun p => (⟨(HasX.x p : Ieee F).toFl.val, 0⟩ : Point2D ℝ)) z = .ok i := by
    refine (findIndex_map _ as x z (fun p hp => ?_) (fun p hp => ?_)).1
    · obtain ⟨j, hj, rfl⟩ := List.getElem_of_mem hp
      have n := forall₂_get h j hj (by rw [← h.length_eq]; exact hj)
      show _ ↔ (HasX.x as[j] : Ieee F).toFl.val < z
      rw [Ieee.toFl_val n, Ieee.lt_number n hx]
    · obtain ⟨j, hj, rfl⟩ := List.getElem_of_mem hp
      have n := forall₂_get h j hj (by rw [← h.length_eq]; exact hj)
      show _ ↔ (HasX.x as[j] : Ieee F).toFl.val ≤ z
      rw [Ieee.toFl_val n, Ieee.le_number n hx]
  have h2 := (findIndex_map (fun q : Q => (⟨(HasX.x q : ℝ), 0⟩ : Point2D ℝ)) bs z z (fun _ _ => Iff.rfl)
    (fun _ _ => Iff.rfl)).1 i
  have e : (as.map fun p => (⟨(HasX.x p : Ieee F).toFl.val, 0⟩ : Point2D ℝ)) =
      bs.map fun q => (⟨(HasX.x q : ℝ), 0⟩ : Point2D ℝ) := by
    clear h1 h2 hf
    induction h with
    | nil => rfl
    | cons hab _ ih => rw [List.map_cons, List.map_cons, ih, Ieee.toFl_val hab]
  rw [h1, e]
  exact h2.1 hf

theorem inScale_max {S : ℝ} (h : S ≤ 2 ^ ((F.emax : ℤ) - 11)) : InScale F (max S (2 ^ (12 - (F.emax : ℤ)))) :=
  ⟨le_max_right _ _, max_le h (le_trans inScale_one.1 inScale_one.2)⟩

/-- **C96.** Hermite splines in `f32` and `f64`, overflow and underflow included.  The nodes `pts` are finite data with
the real values `qs`, and `x` has the real value `z`.  Let `S` bound every ordinate and every slope times the length of
a segment it belongs to, with `S ≤ 2 ^ 1012` for `f64` and `2 ^ 116` for `f32`, and let the lengths of the segments be
in the range of the format.  Then the value is finite, and within `280 u S` of the value the spline would have in exact
arithmetic; `u` is `2 ^ -53` or `2 ^ -24`, and `S` counts as at least `2 ^ -1011` or `2 ^ -115`. -/
theorem C96_hermite (pts : List (Ieee F × Ieee F × Ieee F)) (qs : List (ℝ × ℝ × ℝ))
    (hd : List.Forall₂ (fun p q => IsNumber p.1 q.1 ∧ IsNumber p.2.1 q.2.1 ∧ IsNumber p.2.2 q.2.2) pts qs)
    (hs : StrictlyIncreasing qs) (h2 : 2 ≤ qs.length) (x : Ieee F) (z : ℝ) (hx : IsNumber x z) (hz : InRange qs z) (S : ℝ)
    (hS : S ≤ 2 ^ ((F.emax : ℤ) - 11)) (hy : ∀ q ∈ qs, |q.2.1| ≤ S)
    (hm : ∀ i x₀ y₀ m₀ x₁ y₁ m₁, qs[i]? = some (x₀, y₀, m₀) → qs[i + 1]? = some (x₁, y₁, m₁) →
      |m₀ * (x₁ - x₀)| ≤ S ∧ |m₁ * (x₁ - x₀)| ≤ S ∧ x₁ - x₀ ≤ F.largest) :
    ∃ v r w, evaluateHermite pts x = .ok (.ok v) ∧ IsNumber v r ∧ evaluateHermite qs z = .ok (.ok w) ∧
      |r - w| ≤ 280 * roundoff F * max S (2 ^ (12 - (F.emax : ℤ))) := by
  obtain ⟨i, hi, h0, h1⟩ := exists_index hs h2 hz
  have hl := hd.length_eq
  have n0 := forall₂_get hd i (by omega) (by omega)
  have n1 := forall₂_get hd (i + 1) (by omega) (by omega)
  have e0 : qs[i]? = some (qs[i].1, qs[i].2.1, qs[i].2.2) := by rw [List.getElem?_eq_getElem (by omega)]
  have e1 : qs[i + 1]? = some (qs[i + 1].1, qs[i + 1].2.1, qs[i + 1].2.2) := by rw [List.getElem?_eq_getElem hi]
  have p0 : pts[i]? = some (pts[i].1, pts[i].2.1, pts[i].2.2) := by rw [List.getElem?_eq_getElem (by omega)]
  have p1 : pts[i + 1]? = some (pts[i + 1].1, pts[i + 1].2.1, pts[i + 1].2.2) := by
    rw [List.getElem?_eq_getElem (by omega)]
  have hs' : (qs.map fun p => Point2DWithSlope.new p.1 p.2.1 p.2.2).Pairwise fun p q => (HasX.x p : ℝ) < HasX.x q := by
    rw [List.pairwise_map]; exact hs
  have hf := findIndex_at hs' (i := i) (x := z) (by simpa using hi) (by simp only [List.getElem_map]; exact h0)
    (by simp only [List.getElem_map]; exact h1)
  have hf' : findIndexAtLeftBoundary (pts.map fun p => Point2DWithSlope.new p.1 p.2.1 p.2.2) x = .ok i := by
    refine findIndex_reals ?_ hx hf
    rw [List.forall₂_map_left_iff, List.forall₂_map_right_iff]
    exact hd.imp fun _ _ h => h.1
  have hirr : ∀ p ∈ pts, ¬ p.1 < p.1 := by
    intro p hp
    obtain ⟨j, hj, rfl⟩ := List.getElem_of_mem hp
    exact ieee_lt_irrefl (forall₂_get hd j hj (by omega)).1
  obtain ⟨m0, m1, m2⟩ := hm i _ _ _ _ _ _ e0 e1
  have hM := inScale_max hS
  have hle : qs[i].1 ≤ z := h0.elim le_of_lt fun h => h.2.le
  have lt := List.pairwise_iff_getElem.1 hs i (i + 1) (by omega) hi (by omega)
  obtain ⟨v, hv, ha⟩ := hermiteExpr_iapprox n0.1 n0.2.1 n0.2.2 n1.1 n1.2.1 n1.2.2 hx hle h1 lt m2 hM
    (le_max_of_le_left (hy _ (List.getElem_mem _))) (le_max_of_le_left (hy _ (List.getElem_mem _)))
    (le_max_of_le_left m0) (le_max_of_le_left m1)
  exact ⟨_, _, _, hermite_eval_of (ieeeInt F) (fun _ => rfl) hirr
    (neverDecreasing_of_reals (R := fun p q => IsNumber p.1 q.1 ∧ IsNumber p.2 q.2) hd hs) p0 p1 hf', hv,
    hermite_eval (fun n => (n : ℝ)) ExactCast.fromInt_eq hs e0 e1 h0 h1, ha.1⟩

/-- **C96.** Catmull-Rom splines in `f32` and `f64`, overflow and underflow included.  The nodes `pts` are finite data
with the real values `qs`, and `x` has the real value `z`.  Let `S` bound every ordinate, with `S ≤ 2 ^ 1012` for `f64`
and `2 ^ 116` for `f32`, and let any two abscissae be at most `2 ^ 1022` or `2 ^ 126` apart.  Then the value is finite,
and within `430 u S` of the value the spline would have in exact arithmetic. -/
theorem C96_catmull_rom (pts : List (Ieee F × Ieee F)) (qs : List (ℝ × ℝ))
    (hd : List.Forall₂ (fun p q => IsNumber p.1 q.1 ∧ IsNumber p.2 q.2) pts qs) (hs : StrictlyIncreasing qs)
    (h3 : 3 ≤ qs.length) (x : Ieee F) (z : ℝ) (hx : IsNumber x z) (hz : InRange qs z) (S : ℝ)
    (hS : S ≤ 2 ^ ((F.emax : ℤ) - 11)) (hy : ∀ q ∈ qs, |q.2| ≤ S)
    (hw : ∀ p ∈ qs, ∀ q ∈ qs, q.1 - p.1 ≤ 2 ^ ((F.emax : ℤ) - 1)) :
    ∃ v r w, evaluate (Interpolator.catmullRom (Ieee F)) pts x = .ok (.ok v) ∧ IsNumber v r ∧
      evaluate (Interpolator.catmullRom ℝ) qs z = .ok (.ok w) ∧
      |r - w| ≤ 430 * roundoff F * max S (2 ^ (12 - (F.emax : ℤ))) := by
  obtain ⟨i, hi, h0, h1⟩ := exists_index hs (by omega) hz
  have hl := hd.length_eq
  have hs' : (qs.map fun p => (⟨p.1, p.2⟩ : Point2D ℝ)).Pairwise fun p q => (HasX.x p : ℝ) < HasX.x q :=
    pairwise_map_point.2 hs
  have hf := findIndex_at hs' (i := i) (x := z) (by simpa using hi) (by simp only [List.getElem_map]; exact h0)
    (by simp only [List.getElem_map]; exact h1)
  have hf' : findIndexAtLeftBoundary (pts.map fun p => (⟨p.1, p.2⟩ : Point2D (Ieee F))) x = .ok i := by
    refine findIndex_reals ?_ hx hf
    rw [List.forall₂_map_left_iff, List.forall₂_map_right_iff]
    exact hd.imp fun _ _ h => h.1
  have hirr : ∀ p ∈ pts, ¬ p.1 < p.1 := by
    intro p hp
    obtain ⟨j, hj, rfl⟩ := List.getElem_of_mem hp
    exact ieee_lt_irrefl (forall₂_get hd j hj (by omega)).1
  have hM := inScale_max hS
  have hle : qs[i].1 ≤ z := h0.elim le_of_lt fun h => h.2.le
  have pw := List.pairwise_iff_getElem.1 hs
  have bd : ∀ j (hj : j < qs.length), |qs[j].2| ≤ max S (2 ^ (12 - (F.emax : ℤ))) := fun j hj =>
    le_max_of_le_left (hy _ (List.getElem_mem hj))
  have nx : ∀ j (hj : j < qs.length), IsNumber (pts[j]'(by omega)).1 qs[j].1 := fun j hj => (forall₂_get hd j _ hj).1
  have ny : ∀ j (hj : j < qs.length), IsNumber (pts[j]'(by omega)).2 qs[j].2 := fun j hj => (forall₂_get hd j _ hj).2
  have wd : ∀ j k (hj : j < qs.length) (hk : k < qs.length), qs[k].1 - qs[j].1 ≤ 2 ^ ((F.emax : ℤ) - 1) :=
    fun j k hj hk => hw _ (List.getElem_mem hj) _ (List.getElem_mem hk)
  have ev := catmullRom_eval_of (ieeeInt F) (fun _ => rfl) hirr (neverDecreasing_of_reals hd hs) (by omega) (i := i)
    (by omega) hf'
  have er := catmullRom_eval (fun n => (n : ℝ)) ExactCast.fromInt_eq hs h3 hi h0 h1
  by_cases hz : i = 0
  · subst hz
    simp only [dif_pos] at ev er
    obtain ⟨v, hv, ha⟩ := crFirst_iapprox (nx 0 (by omega)) (ny 0 (by omega)) (nx 1 (by omega)) (ny 1 (by omega))
      (nx 2 (by omega)) (ny 2 (by omega)) hx hle h1 (pw 0 1 (by omega) (by omega) (by omega))
      (pw 1 2 (by omega) (by omega) (by omega)) (wd 0 1 _ _) (wd 1 2 _ _) hM (bd 0 (by omega)) (bd 1 (by omega))
      (bd 2 (by omega))
    exact ⟨_, _, _, ev, hv, er, ha.1⟩
  · simp only [dif_neg hz] at ev er
    by_cases hl' : i + 2 = qs.length
    · simp only [dif_pos hl', dif_pos (hl'.trans hl.symm)] at ev er
      obtain ⟨v, hv, ha⟩ := crLast_iapprox (nx (i - 1) (by omega)) (ny (i - 1) (by omega)) (nx i (by omega))
        (ny i (by omega)) (nx (i + 1) (by omega)) (ny (i + 1) (by omega)) hx hle h1
        (pw i (i + 1) (by omega) (by omega) (by omega)) (pw (i - 1) i (by omega) (by omega) (by omega))
        (wd (i - 1) (i + 1) _ _) hM (bd (i - 1) (by omega)) (bd i (by omega)) (bd (i + 1) (by omega))
      exact ⟨_, _, _, ev, hv, er, ha.1⟩
    · have hl2 : ¬ i + 2 = pts.length := by omega
      simp only [dif_neg hl', dif_neg hl2] at ev er
      obtain ⟨v, hv, ha⟩ := crInner_iapprox (nx (i - 1) (by omega)) (ny (i - 1) (by omega)) (nx i (by omega))
        (ny i (by omega)) (nx (i + 1) (by omega)) (ny (i + 1) (by omega)) (nx (i + 2) (by omega)) (ny (i + 2) (by omega))
        hx hle h1 (pw i (i + 1) (by omega) (by omega) (by omega)) (pw (i - 1) i (by omega) (by omega) (by omega))
        (pw (i + 1) (i + 2) (by omega) (by omega) (by omega)) (wd (i - 1) (i + 1) _ _) (wd (i + 1) (i + 2) _ _) hM
        (bd (i - 1) (by omega)) (bd i (by omega)) (bd (i + 1) (by omega)) (bd (i + 2) (by omega))
      exact ⟨_, _, _, ev, hv, er, ha.1⟩

/-- In `f64`, the cubic from `(0, 1)` with slope `0` to `(1, 0)` with slope `1`, at one half. -/
example : ∃ x v : Ieee .binary64, ∃ r w : ℝ, IsNumber x (1 / 2) ∧
    evaluateHermite [((0 : Ieee .binary64), (1 : Ieee .binary64), (0 : Ieee .binary64)), (1, 0, 1)] x = .ok (.ok v) ∧
    IsNumber v r ∧ evaluateHermite [((0 : ℝ), (1 : ℝ), (0 : ℝ)), (1, 0, 1)] (1 / 2) = .ok (.ok w) ∧
    |r - w| ≤ 280 * roundoff .binary64 := by
  obtain ⟨x, hx⟩ := IeeeFormat.exists_number (representable_dyadic (F := .binary64) 1 1 (by norm_num [IeeeFormat.binary64])
    (by norm_num [IeeeFormat.binary64]))
  norm_num at hx
  have hx' : IsNumber x (1 / 2) := by norm_num; exact hx
  have n0 := Ieee.zero_number (F := .binary64)
  have n1 := Ieee.one_number (F := .binary64)
  obtain ⟨v, r, w, hv, hr, hw, he⟩ := C96_hermite [((0 : Ieee .binary64), (1 : Ieee .binary64), (0 : Ieee .binary64)), (1, 0, 1)]
    [((0 : ℝ), (1 : ℝ), (0 : ℝ)), (1, 0, 1)]
    (.cons ⟨n0, n1, n0⟩ (.cons ⟨n1, n0, n1⟩ .nil)) (by simp [StrictlyIncreasing]) (by simp) x (1 / 2) hx'
    ⟨⟨_, List.mem_cons_self, by norm_num⟩, ⟨_, List.mem_cons_of_mem _ List.mem_cons_self, by norm_num⟩⟩ 1
    inScale_one.2 (by simp) (by
      rintro (_ | _ | i) x₀ y₀ m₀ x₁ y₁ m₁ h h'
      · simp only [List.getElem?_cons_zero, Option.some.injEq, Prod.mk.injEq, zero_add, List.getElem?_cons_succ] at h h'
        obtain ⟨rfl, rfl, rfl⟩ := h
        obtain ⟨rfl, rfl, rfl⟩ := h'
        refine ⟨by norm_num, by norm_num, ?_⟩
        have := inScale_one.fits (F := .binary64) (x := 1) (by norm_num)
        simpa using this
      · simp at h'
      · simp at h')
  refine ⟨x, v, r, w, hx', hv, hr, hw, ?_⟩
  rwa [max_eq_left inScale_one.1, mul_one] at he

/-- In `f64`, the Catmull-Rom spline through `(0, 1)`, `(1, 0)` and `(2, 1)`, at one half. -/
example : ∃ x two v : Ieee .binary64, ∃ r w : ℝ, IsNumber x (1 / 2) ∧ IsNumber two 2 ∧
    evaluate (Interpolator.catmullRom (Ieee .binary64)) [(0, 1), (1, 0), (two, 1)] x = .ok (.ok v) ∧
    IsNumber v r ∧ evaluate (Interpolator.catmullRom ℝ) [(0, 1), (1, 0), (2, 1)] (1 / 2) = .ok (.ok w) ∧
    |r - w| ≤ 430 * roundoff .binary64 := by
  obtain ⟨x, hx⟩ := IeeeFormat.exists_number (representable_dyadic (F := .binary64) 1 1 (by norm_num [IeeeFormat.binary64])
    (by norm_num [IeeeFormat.binary64]))
  norm_num at hx
  have hx' : IsNumber x (1 / 2) := by norm_num; exact hx
  obtain ⟨t, ht⟩ := IeeeFormat.exists_number (representable_dyadic (F := .binary64) 2 0 (by norm_num [IeeeFormat.binary64])
    (by norm_num [IeeeFormat.binary64]))
  norm_num at ht
  have n0 := Ieee.zero_number (F := .binary64)
  have n1 := Ieee.one_number (F := .binary64)
  have hb : (2 : ℝ) ≤ 2 ^ ((IeeeFormat.binary64.emax : ℤ) - 1) := by
    have : (2 : ℝ) ^ (1 : ℤ) ≤ 2 ^ ((IeeeFormat.binary64.emax : ℤ) - 1) :=
      zpow_le_zpow_right₀ (by norm_num) (by norm_num [IeeeFormat.binary64])
    simpa using this
  obtain ⟨v, r, w, hv, hr, hw, he⟩ := C96_catmull_rom [((0 : Ieee .binary64), (1 : Ieee .binary64)), (1, 0), (t, 1)]
    [((0 : ℝ), (1 : ℝ)), (1, 0), (2, 1)]
    (.cons ⟨n0, n1⟩ (.cons ⟨n1, n0⟩ (.cons ⟨ht, n1⟩ .nil))) (by norm_num [StrictlyIncreasing]) (by simp) x (1 / 2) hx'
    ⟨⟨_, List.mem_cons_self, by norm_num⟩, ⟨_, List.mem_cons_of_mem _ List.mem_cons_self, by norm_num⟩⟩ 1
    inScale_one.2 (by simp) (by
      intro p hp q hq
      simp only [List.mem_cons, List.not_mem_nil, or_false] at hp hq
      rcases hp with rfl | rfl | rfl <;> rcases hq with rfl | rfl | rfl <;> refine le_trans ?_ hb <;> norm_num)
  refine ⟨x, t, v, r, w, hx', ht, hv, hr, hw, ?_⟩
  rwa [max_eq_left inScale_one.1, mul_one] at he

/-! ## Nodes -/

theorem exact_mul {a b : Ieee F} {x y p : ℝ} (ha : IsNumber a x) (hb : IsNumber b y) (hp : F.Representable p)
    (e : x * y = p) : IsNumber (a * b) p := by
  have := Ieee.mul_round ha hb (by rw [e]; exact hp.2)
  rwa [e, hp.1] at this

theorem exact_add {a b : Ieee F} {x y p : ℝ} (ha : IsNumber a x) (hb : IsNumber b y) (hp : F.Representable p)
    (e : x + y = p) : IsNumber (a + b) p := by
  have := Ieee.add_number ha hb (by rw [e]; exact hp.2)
  rwa [e, F.fl_of_rep hp.1] at this

/-- A product of two vectors without rounding. -/
theorem exact_dot {u v : Vec4 (Ieee F)} {a b c d a' b' c' d' p₁ p₂ p₃ p₄ s₂ s₃ s₄ : ℝ} (ha : IsNumber u.a a)
    (hb : IsNumber u.b b) (hc : IsNumber u.c c) (hd : IsNumber u.d d) (ga : IsNumber v.a a') (gb : IsNumber v.b b')
    (gc : IsNumber v.c c') (gd : IsNumber v.d d') (r₁ : F.Representable p₁) (r₂ : F.Representable p₂)
    (r₃ : F.Representable p₃) (r₄ : F.Representable p₄) (t₂ : F.Representable s₂) (t₃ : F.Representable s₃)
    (t₄ : F.Representable s₄) (e : (a * a' = p₁ ∧ b * b' = p₂ ∧ c * c' = p₃ ∧ d * d' = p₄) ∧ p₂ + p₁ = s₂ ∧ p₃ + s₂ = s₃ ∧
      p₄ + s₃ = s₄) : IsNumber (u.dot v) s₄ := by
  obtain ⟨⟨e1, e2, e3, e4⟩, f2, f3, f4⟩ := e
  exact exact_add (exact_mul hd gd r₄ e4) (exact_add (exact_mul hc gc r₃ e3)
    (exact_add (exact_mul hb gb r₂ e2) (exact_mul ha ga r₁ e1) t₂ f2) t₃ f3) t₄ f4

theorem ieeeInt_number (n : ℤ) (h : |n| ≤ 100) : IsNumber (ieeeInt F n) (n : ℝ) := by
  obtain ⟨b, hb, hn⟩ := Ieee.fromInt_number (F := F) n (le_trans h (le_trans (by norm_num)
    (pow_le_pow_right₀ (by norm_num) F.prec_ge : (2 : ℤ) ^ 24 ≤ 2 ^ F.prec)))
  cases hb
  exact hn

/-- The ends of a segment are positions `0` and `1`, exactly. -/
theorem exact_position {x₀ x₁ : Ieee F} {a b : ℝ} (ha : IsNumber x₀ a) (hb : IsNumber x₁ b) (hlt : a < b)
    (hfit : b - a ≤ F.largest) :
    IsNumber ((x₀ - x₀) / (x₁ - x₀)) 0 ∧ IsNumber ((x₁ - x₀) / (x₁ - x₀)) 1 := by
  have n0 := Ieee.sub_number ha ha (by rw [sub_self, abs_zero]; exact F.largest_pos.le)
  have n1 := Ieee.sub_number hb ha (by rw [abs_of_nonneg (by linarith)]; exact hfit)
  have p1 := F.arith.fl_pos (sub_pos.2 hlt)
  rw [sub_self, F.arith.fl_zero] at n0
  have r0 := Ieee.rep_of_isNumber (Ieee.zero_number (F := F))
  have r1 := Ieee.rep_of_isNumber (Ieee.one_number (F := F))
  constructor
  · have := Ieee.div_round n0 n1 p1.ne' (by rw [zero_div]; exact r0.2)
    rwa [zero_div, r0.1] at this
  · have := Ieee.div_round n1 n1 p1.ne' (by rw [div_self p1.ne']; exact r1.2)
    rwa [div_self p1.ne', r1.1] at this

theorem hermiteExpr_ends {x₀ y₀ m₀ x₁ y₁ m₁ : Ieee F} {a η₀ μ₀ b η₁ μ₁ : ℝ} (ha : IsNumber x₀ a) (hy0 : IsNumber y₀ η₀)
    (hm0 : IsNumber m₀ μ₀) (hb : IsNumber x₁ b) (hy1 : IsNumber y₁ η₁) (hm1 : IsNumber m₁ μ₁) (hlt : a < b)
    (hfit : b - a ≤ F.largest) (b2 : |μ₀ * (b - a)| ≤ 2 ^ ((F.emax : ℤ) - 1)) (b3 : |μ₁ * (b - a)| ≤ 2 ^ ((F.emax : ℤ) - 1)) :
    IsNumber (hermiteExpr (ieeeInt F) x₀ y₀ m₀ x₁ y₁ m₁ x₀) η₀ ∧
    IsNumber (hermiteExpr (ieeeInt F) x₀ y₀ m₀ x₁ y₁ m₁ x₁) η₁ := by
  have slope : ∀ {m : Ieee F} {μ : ℝ}, IsNumber m μ → |μ * (b - a)| ≤ 2 ^ ((F.emax : ℤ) - 1) →
      ∃ s, IsNumber (m * (x₁ - x₀)) s := by
    intro m μ hm h
    have n1 := Ieee.sub_number hb ha (by rw [abs_of_nonneg (by linarith)]; exact hfit)
    have hu := F.arith.unit_pos
    have hu1 := F.arith.unit_le
    have hfl := F.arith.err' (b - a)
    refine ⟨_, Ieee.mul_round hm n1 (le_trans ?_ F.largest_ge)⟩
    have e : (2 : ℝ) ^ F.emax = 2 * 2 ^ ((F.emax : ℤ) - 1) := by
      rw [← zpow_one_add₀ (by norm_num), ← zpow_natCast]; congr 1; omega
    rw [abs_mul] at h ⊢
    have h1 : |F.arith.fl (b - a)| ≤ 2 * |b - a| := by
      have := abs_add_le (F.arith.fl (b - a) - (b - a)) (b - a)
      rw [sub_add_cancel] at this
      nlinarith [abs_nonneg (b - a)]
    have := mul_le_mul_of_nonneg_left h1 (abs_nonneg μ)
    rw [e]
    linarith
  obtain ⟨s0, f2⟩ := slope hm0 b2
  obtain ⟨s1, f3⟩ := slope hm1 b3
  have rep : ∀ n : ℤ, |n| ≤ 100 → F.Representable (n : ℝ) := fun n h => Ieee.rep_of_isNumber (ieeeInt_number n h)
  have r0 := Ieee.rep_of_isNumber (Ieee.zero_number (F := F))
  have r1 := Ieee.rep_of_isNumber (Ieee.one_number (F := F))
  have r2 : F.Representable 2 := by simpa using rep 2 (by norm_num)
  have r3 : F.Representable 3 := by simpa using rep 3 (by norm_num)
  have r1' : F.Representable (-1) := by simpa using rep (-1) (by norm_num)
  have r2' : F.Representable (-2) := by simpa using rep (-2) (by norm_num)
  have r3' : F.Representable (-3) := by simpa using rep (-3) (by norm_num)
  have i2 : IsNumber (ieeeInt F 2) 2 := by simpa using ieeeInt_number (F := F) 2 (by norm_num)
  have i3 : IsNumber (ieeeInt F 3) 3 := by simpa using ieeeInt_number (F := F) 3 (by norm_num)
  have i2' : IsNumber (ieeeInt F (-2)) (-2) := by simpa using ieeeInt_number (F := F) (-2) (by norm_num)
  have i3' : IsNumber (ieeeInt F (-3)) (-3) := by simpa using ieeeInt_number (F := F) (-3) (by norm_num)
  have o := Ieee.one_number (F := F)
  have o' := Ieee.neg_number o
  have z := Ieee.zero_number (F := F)
  have ry0 := Ieee.rep_of_isNumber hy0
  have ry1 := Ieee.rep_of_isNumber hy1
  obtain ⟨d0, d1⟩ := exact_position ha hb hlt hfit
  have q2 := exact_mul d0 d0 r0 (by norm_num)
  have q3 := exact_mul q2 d0 r0 (by norm_num)
  have w2 := exact_mul d1 d1 r1 (by norm_num)
  have w3 := exact_mul w2 d1 r1 (by norm_num)
  constructor
  · unfold hermiteExpr
    refine exact_dot (a := 1) (b := 0) (c := 0) (d := 0) ?_ ?_ ?_ ?_ hy0 hy1 f2 f3 ry0 r0 r0 r0 ry0 ry0 ry0 (by norm_num)
    · exact exact_dot q3 q2 d0 o i2 i3' z o r0 r0 r0 r1 r0 r0 r1 (by norm_num)
    · exact exact_dot q3 q2 d0 o i2' i3 z z r0 r0 r0 r0 r0 r0 r0 (by norm_num)
    · exact exact_dot q3 q2 d0 o o i2' o z r0 r0 r0 r0 r0 r0 r0 (by norm_num)
    · exact exact_dot q3 q2 d0 o o o' z z r0 r0 r0 r0 r0 r0 r0 (by norm_num)
  · unfold hermiteExpr
    refine exact_dot (a := 0) (b := 1) (c := 0) (d := 0) ?_ ?_ ?_ ?_ hy0 hy1 f2 f3 r0 ry1 r0 r0 ry1 ry1 ry1 (by norm_num)
    · exact exact_dot w3 w2 d1 o i2 i3' z o r2 r3' r0 r1 r1' r1' r0 (by norm_num)
    · exact exact_dot w3 w2 d1 o i2' i3 z z r2' r3 r0 r0 r1 r1 r1 (by norm_num)
    · exact exact_dot w3 w2 d1 o o i2' o z r1 r2' r1 r0 r1' r0 r0 (by norm_num)
    · exact exact_dot w3 w2 d1 o o o' z z r1 r1' r0 r0 r0 r0 r0 (by norm_num)

/-- **C96.** In `f32` and `f64` a Hermite spline returns the given ordinate at every node, exactly, if slopes times
lengths of segments stay below `2 ^ 1022` or `2 ^ 126`. -/
theorem C96_hermite_nodes (pts : List (Ieee F × Ieee F × Ieee F)) (qs : List (ℝ × ℝ × ℝ))
    (hd : List.Forall₂ (fun p q => IsNumber p.1 q.1 ∧ IsNumber p.2.1 q.2.1 ∧ IsNumber p.2.2 q.2.2) pts qs)
    (hs : StrictlyIncreasing qs) (h2 : 2 ≤ qs.length)
    (hm : ∀ i x₀ y₀ m₀ x₁ y₁ m₁, qs[i]? = some (x₀, y₀, m₀) → qs[i + 1]? = some (x₁, y₁, m₁) →
      |m₀ * (x₁ - x₀)| ≤ 2 ^ ((F.emax : ℤ) - 1) ∧ |m₁ * (x₁ - x₀)| ≤ 2 ^ ((F.emax : ℤ) - 1) ∧ x₁ - x₀ ≤ F.largest)
    (x y m : Ieee F) (hp : (x, y, m) ∈ pts) (r : ℝ) (hy : IsNumber y r) :
    ∃ v, evaluateHermite pts x = .ok (.ok v) ∧ IsNumber v r := by
  have hl := hd.length_eq
  obtain ⟨j, hj, e⟩ := List.getElem_of_mem hp
  have pw := List.pairwise_iff_getElem.1 hs
  have nj := forall₂_get hd j hj (by omega)
  have hr : r = qs[j].2.1 := by rw [e] at nj; exact Ieee.isNumber_inj hy nj.2.1
  have hirr : ∀ p ∈ pts, ¬ p.1 < p.1 := by
    intro p hp
    obtain ⟨j, hj, rfl⟩ := List.getElem_of_mem hp
    exact ieee_lt_irrefl (forall₂_get hd j hj (by omega)).1
  have hnd : NeverDecreasing pts :=
    neverDecreasing_of_reals (R := fun p q => IsNumber p.1 q.1 ∧ IsNumber p.2 q.2) hd hs
  have key : ∀ i (hi : i + 1 < qs.length), (i = j ∧ i = 0) ∨ i + 1 = j →
      ∃ v, evaluateHermite pts x = .ok (.ok v) ∧ IsNumber v r := by
    intro i hi hij
    have n0 := forall₂_get hd i (by omega) (by omega)
    have n1 := forall₂_get hd (i + 1) (by omega) (by omega)
    have e0 : qs[i]? = some (qs[i].1, qs[i].2.1, qs[i].2.2) := by rw [List.getElem?_eq_getElem (by omega)]
    have e1 : qs[i + 1]? = some (qs[i + 1].1, qs[i + 1].2.1, qs[i + 1].2.2) := by rw [List.getElem?_eq_getElem hi]
    have p0 : pts[i]? = some (pts[i].1, pts[i].2.1, pts[i].2.2) := by rw [List.getElem?_eq_getElem (by omega)]
    have p1 : pts[i + 1]? = some (pts[i + 1].1, pts[i + 1].2.1, pts[i + 1].2.2) := by
      rw [List.getElem?_eq_getElem (by omega)]
    have lt := pw i (i + 1) (by omega) hi (by omega)
    obtain ⟨m0, m1, m2⟩ := hm i _ _ _ _ _ _ e0 e1
    have hs' : (qs.map fun p => Point2DWithSlope.new p.1 p.2.1 p.2.2).Pairwise fun p q => (HasX.x p : ℝ) < HasX.x q := by
      rw [List.pairwise_map]; exact hs
    have hf := findIndex_at hs' (i := i) (x := qs[j].1) (by simpa using hi)
      (by
        simp only [List.getElem_map]
        rcases hij with ⟨rfl, rfl⟩ | rfl
        · exact Or.inr ⟨rfl, rfl⟩
        · exact Or.inl lt)
      (by
        simp only [List.getElem_map]
        rcases hij with ⟨rfl, rfl⟩ | rfl
        · exact lt.le
        · exact le_rfl)
    have hx : x = pts[j].1 := by rw [e]
    have hf' : findIndexAtLeftBoundary (pts.map fun p => Point2DWithSlope.new p.1 p.2.1 p.2.2) x = .ok i := by
      rw [hx]
      refine findIndex_reals ?_ nj.1 hf
      rw [List.forall₂_map_left_iff, List.forall₂_map_right_iff]
      exact hd.imp fun _ _ h => h.1
    refine ⟨_, hermite_eval_of (ieeeInt F) (fun _ => rfl) hirr hnd p0 p1 hf', ?_⟩
    have := hermiteExpr_ends n0.1 n0.2.1 n0.2.2 n1.1 n1.2.1 n1.2.2 lt m2 m0 m1
    rw [hr, hx]
    rcases hij with ⟨rfl, rfl⟩ | rfl
    · exact this.1
    · exact this.2
  rcases Nat.eq_zero_or_pos j with h0 | h0
  · exact key 0 (by omega) (Or.inl ⟨h0.symm, rfl⟩)
  · exact key (j - 1) (by omega) (Or.inr (by omega))

example : ∃ v : Ieee .binary64,
    evaluateHermite [((0 : Ieee .binary64), (1 : Ieee .binary64), (0 : Ieee .binary64)), (1, 0, 1)] 1 = .ok (.ok v) ∧
    IsNumber v 0 := by
  have n0 := Ieee.zero_number (F := .binary64)
  have n1 := Ieee.one_number (F := .binary64)
  have h1 : (1 : ℝ) ≤ 2 ^ ((IeeeFormat.binary64.emax : ℤ) - 1) :=
    one_le_zpow₀ (by norm_num) (by norm_num [IeeeFormat.binary64])
  refine C96_hermite_nodes [((0 : Ieee .binary64), (1 : Ieee .binary64), (0 : Ieee .binary64)), (1, 0, 1)]
    [((0 : ℝ), (1 : ℝ), (0 : ℝ)), (1, 0, 1)]
    (.cons ⟨n0, n1, n0⟩ (.cons ⟨n1, n0, n1⟩ .nil)) (by simp [StrictlyIncreasing]) (by simp) ?_ 1 0 1
    (List.mem_cons_of_mem _ List.mem_cons_self) 0 n0
  rintro (_ | _ | i) x₀ y₀ m₀ x₁ y₁ m₁ h h'
  · simp only [List.getElem?_cons_zero, Option.some.injEq, Prod.mk.injEq, zero_add, List.getElem?_cons_succ] at h h'
    obtain ⟨rfl, rfl, rfl⟩ := h
    obtain ⟨rfl, rfl, rfl⟩ := h'
    refine ⟨by simpa using le_trans zero_le_one h1, by simpa using h1, ?_⟩
    rw [sub_zero]
    exact le_trans h1 half_le_largest
  · simp at h'
  · simp at h'

/-! ## Linear interpolation of any finite data -/

/-- A rounded number, as a relative and an absolute error. -/
theorem round_parts (z : ℝ) : ∃ d η : ℝ, |d| ≤ roundoff F ∧ |η| ≤ 2 ^ F.bottom / 2 ∧ F.round z = z * (1 + d) + η := by
  have h := F.round_err z
  have hb := Binary.zpow_pos' F.bottom
  have hu := F.arith.unit_pos
  by_cases hz : |F.round z - z| ≤ 2 ^ F.bottom / 2
  · exact ⟨0, F.round z - z, by rw [abs_zero]; exact hu.le, hz, by ring⟩
  · push Not at hz
    have hz0 : z ≠ 0 := by
      rintro rfl
      rw [abs_zero, mul_zero, zero_add] at h
      linarith
    have hzp := abs_pos.2 hz0
    rcases le_total 0 (F.round z - z) with hs | hs
    · rw [abs_of_nonneg hs] at h hz
      refine ⟨(F.round z - z - 2 ^ F.bottom / 2) / z, 2 ^ F.bottom / 2, ?_, ?_, ?_⟩
      · rw [abs_div, div_le_iff₀ hzp, abs_of_nonneg (by linarith)]; linarith
      · rw [abs_of_nonneg (by linarith)]
      · field_simp; ring
    · rw [abs_of_nonpos hs] at h hz
      refine ⟨(F.round z - z + 2 ^ F.bottom / 2) / z, -(2 ^ F.bottom / 2), ?_, ?_, ?_⟩
      · rw [abs_div, div_le_iff₀ hzp, abs_of_nonpos (by linarith)]; linarith
      · rw [abs_neg, abs_of_nonneg (by linarith)]
      · field_simp; ring

/-- The error of the steps of linear interpolation with relative errors of `u` and absolute errors of `β / 2`. -/
theorem line_parts {u β y₀ y₁ h e d1 d2 d3 d4 d5 d6 η4 η5 : ℝ} (hu0 : 0 < u) (hu1 : u ≤ 1 / 16777216) (hβ : 0 ≤ β)
    (he0 : 0 ≤ e) (heh : e ≤ h) (hh : 0 < h) (hd1 : |d1| ≤ u) (hd2 : |d2| ≤ u) (hd3 : |d3| ≤ u) (hd4 : |d4| ≤ u)
    (hd5 : |d5| ≤ u) (hd6 : |d6| ≤ u) (hη4 : |η4| ≤ β / 2) (hη5 : |η5| ≤ β / 2) :
    |((y₁ - y₀) * (1 + d1) / (h * (1 + d2)) * (1 + d4) + η4) * (e * (1 + d3)) * (1 + d5) + η5| ≤
      1.001 * |y₁ - y₀| + β * (e + 1) ∧
    |(y₀ + (((y₁ - y₀) * (1 + d1) / (h * (1 + d2)) * (1 + d4) + η4) * (e * (1 + d3)) * (1 + d5) + η5)) * (1 + d6) -
      (y₀ + (y₁ - y₀) * (e / h))| ≤ u * |y₀ + (y₁ - y₀) * (e / h)| + 6 * u * |y₁ - y₀| + β * (e + 1) := by
  have hp2 : 0 < 1 + d2 := by have := abs_le.1 hd2; linarith
  have hθ0 : 0 ≤ e / h := div_nonneg he0 hh.le
  have hθ1 : e / h ≤ 1 := (div_le_one hh).2 heh
  set G := (1 + d1) * (1 + d3) * (1 + d4) * (1 + d5) * (1 / (1 + d2)) with hG
  set R := η4 * (e * (1 + d3)) * (1 + d5) + η5 with hR
  have hP : ((y₁ - y₀) * (1 + d1) / (h * (1 + d2)) * (1 + d4) + η4) * (e * (1 + d3)) * (1 + d5) + η5 =
      (y₁ - y₀) * (e / h) * G + R := by
    rw [hG, hR]; field_simp; ring
  rw [hP]
  have nd : ∀ d : ℝ, |d| ≤ u → |1 + d - 1| ≤ 1 * u := fun d hd => by rwa [add_sub_cancel_left, one_mul]
  have a1 := near_mul_unit hu0 hu1 (by norm_num) (by norm_num) (by norm_num) (by norm_num) (nd d1 hd1) (nd d3 hd3)
  have a2 := near_mul_unit hu0 hu1 (by norm_num) (by norm_num) (by norm_num) (by norm_num) a1 (nd d4 hd4)
  have a3 := near_mul_unit hu0 hu1 (by norm_num) (by norm_num) (by norm_num) (by norm_num) a2 (nd d5 hd5)
  have a4 := near_mul_unit hu0 hu1 (by norm_num) (by norm_num) (by norm_num) (by norm_num) a3 (near_inv hu1 hd2)
  have hGerr : |G - 1| ≤ 5.5 * u := le_trans a4 (mul_le_mul_of_nonneg_right (by norm_num) hu0.le)
  have hRe : |R| ≤ β * (0.6 * e + 0.6) := by
    have f3 : |1 + d3| ≤ 1.001 := by have := _root_.abs_le.1 hd3; rw [_root_.abs_le]; constructor <;> linarith
    have f5 : |1 + d5| ≤ 1.001 := by have := _root_.abs_le.1 hd5; rw [_root_.abs_le]; constructor <;> linarith
    calc |R| ≤ |η4 * (e * (1 + d3)) * (1 + d5)| + |η5| := abs_add_le _ _
      _ = |η4| * (e * |1 + d3|) * |1 + d5| + |η5| := by rw [abs_mul, abs_mul, abs_mul, abs_of_nonneg he0]
      _ ≤ β / 2 * (e * 1.001) * 1.001 + β / 2 := by gcongr
      _ ≤ β * (0.6 * e + 0.6) := by nlinarith [mul_nonneg hβ he0]
  have hD := abs_nonneg (y₁ - y₀)
  have hDt : |y₁ - y₀| * (e / h) ≤ |y₁ - y₀| := mul_le_of_le_one_right hD hθ1
  have hDt0 : 0 ≤ |y₁ - y₀| * (e / h) := mul_nonneg hD hθ0
  have hEe : |(y₁ - y₀) * (e / h) * (G - 1)| ≤ 5.5 * u * |y₁ - y₀| := by
    rw [abs_mul, abs_mul, abs_of_nonneg hθ0]
    nlinarith [abs_nonneg (G - 1)]
  have hβe : 0 ≤ β * e := mul_nonneg hβ he0
  constructor
  · have e1 : (y₁ - y₀) * (e / h) * G + R = (y₁ - y₀) * (e / h) + (y₁ - y₀) * (e / h) * (G - 1) + R := by ring
    rw [e1]
    have t1 := abs_add_le ((y₁ - y₀) * (e / h) + (y₁ - y₀) * (e / h) * (G - 1)) R
    have t2 := abs_add_le ((y₁ - y₀) * (e / h)) ((y₁ - y₀) * (e / h) * (G - 1))
    have t3 : |(y₁ - y₀) * (e / h)| ≤ |y₁ - y₀| := by rw [abs_mul, abs_of_nonneg hθ0]; exact hDt
    have t4 : 5.5 * u * |y₁ - y₀| ≤ 0.001 * |y₁ - y₀| := mul_le_mul_of_nonneg_right (by linarith) hD
    linarith
  · have hfin : (y₀ + ((y₁ - y₀) * (e / h) * G + R)) * (1 + d6) - (y₀ + (y₁ - y₀) * (e / h)) =
        ((y₁ - y₀) * (e / h) * (G - 1) + R) + (y₀ + (y₁ - y₀) * (e / h)) * d6 +
          ((y₁ - y₀) * (e / h) * (G - 1) + R) * d6 := by ring
    rw [hfin]
    have hE : |(y₁ - y₀) * (e / h) * (G - 1) + R| ≤ 5.5 * u * |y₁ - y₀| + β * (0.6 * e + 0.6) :=
      le_trans (abs_add_le _ _) (add_le_add hEe hRe)
    have t1 := abs_add_le (((y₁ - y₀) * (e / h) * (G - 1) + R) + (y₀ + (y₁ - y₀) * (e / h)) * d6)
      (((y₁ - y₀) * (e / h) * (G - 1) + R) * d6)
    have t2 := abs_add_le ((y₁ - y₀) * (e / h) * (G - 1) + R) ((y₀ + (y₁ - y₀) * (e / h)) * d6)
    have t3 : |(y₀ + (y₁ - y₀) * (e / h)) * d6| ≤ u * |y₀ + (y₁ - y₀) * (e / h)| := by
      rw [abs_mul, mul_comm]; exact mul_le_mul_of_nonneg_right hd6 (abs_nonneg _)
    have t4 : |((y₁ - y₀) * (e / h) * (G - 1) + R) * d6| ≤ 0.001 * (5.5 * u * |y₁ - y₀| + β * (0.6 * e + 0.6)) := by
      rw [abs_mul, mul_comm]
      exact mul_le_mul (by linarith) hE (abs_nonneg _) (by norm_num)
    have hud : 0 ≤ u * |y₁ - y₀| := mul_nonneg hu0.le hD
    linarith

/-- **C96.** Linear interpolation in `f32` and `f64`, overflow and underflow included, for finite data of any size: where
ordinates, gaps and slopes leave room for their differences, the value is finite, and the accuracy is that of exact
rounding (C71) up to one step of the smallest positive numbers times one plus the distance to the left node. -/
theorem C96_linear (pts : List (Ieee F × Ieee F)) (qs : List (ℝ × ℝ))
    (hd : List.Forall₂ (fun p q => IsNumber p.1 q.1 ∧ IsNumber p.2 q.2) pts qs) (hs : StrictlyIncreasing qs) (i : Nat)
    (a b c d z : ℝ) (hseg : IsSegment qs i a b c d) (x : Ieee F) (hx : IsNumber x z) (h0 : a < z ∨ (i = 0 ∧ a = z))
    (h1 : z ≤ c) (hb : |b| ≤ 2 ^ ((F.emax : ℤ) - 2)) (hd' : |d| ≤ 2 ^ ((F.emax : ℤ) - 2))
    (hm : |d - b| ≤ 2 ^ ((F.emax : ℤ) - 1) * (c - a)) (hw : c - a ≤ 2 ^ F.emax) :
    ∃ v r, evaluate (Interpolator.linear (Ieee F)) pts x = .ok (.ok v) ∧ IsNumber v r ∧
      |r - lineThrough a b c d z| ≤ roundoff F * |lineThrough a b c d z| + 6 * roundoff F * |d - b| +
        2 ^ F.bottom * (z - a + 1) := by
  obtain ⟨s0, s1⟩ := hseg
  obtain ⟨hi0, e0⟩ := List.getElem?_eq_some_iff.1 s0
  obtain ⟨hi1, e1⟩ := List.getElem?_eq_some_iff.1 s1
  have hl := hd.length_eq
  have n0 := forall₂_get hd i (by omega) hi0
  have n1 := forall₂_get hd (i + 1) (by omega) hi1
  rw [e0] at n0
  rw [e1] at n1
  have hac : a < c := by
    have := List.pairwise_iff_getElem.1 hs i (i + 1) hi0 hi1 (by omega)
    rwa [e0, e1] at this
  have haz : a ≤ z := h0.elim le_of_lt fun h => h.2.le
  have hs' : (qs.map fun p => (⟨p.1, p.2⟩ : Point2D ℝ)).Pairwise fun p q => (HasX.x p : ℝ) < HasX.x q :=
    pairwise_map_point.2 hs
  have hf := findIndex_at hs' (i := i) (x := z) (by simpa using hi1) (by simp only [List.getElem_map, e0]; exact h0)
    (by simp only [List.getElem_map, e1]; exact h1)
  have hf' : findIndexAtLeftBoundary (pts.map fun p => (⟨p.1, p.2⟩ : Point2D (Ieee F))) x = .ok i := by
    refine findIndex_reals ?_ hx hf
    rw [List.forall₂_map_left_iff, List.forall₂_map_right_iff]
    exact hd.imp fun _ _ h => h.1
  have ev : evaluate (Interpolator.linear (Ieee F)) pts x = .ok (.ok
      (pts[i].2 + (pts[i + 1].2 - pts[i].2) / (pts[i + 1].1 - pts[i].1) * (x - pts[i].1))) := by
    rw [evaluate_linear]
    unfold Linear.tryValue
    rw [hf']
    have i1 : Rust.index (pts.map fun p => (⟨p.1, p.2⟩ : Point2D (Ieee F))) i = .ok ⟨pts[i].1, pts[i].2⟩ :=
      Rust.index_of_eq (by simp)
    have i2 : Rust.index (pts.map fun p => (⟨p.1, p.2⟩ : Point2D (Ieee F))) (i + 1) = .ok ⟨pts[i + 1].1, pts[i + 1].2⟩ :=
      Rust.index_of_eq (by simp)
    simp only [i1, i2]
    rfl
  have pe : (2 : ℝ) ^ F.emax = 2 * 2 ^ ((F.emax : ℤ) - 1) := by
    rw [← zpow_one_add₀ (by norm_num), ← zpow_natCast]; congr 1; omega
  have pe2 : (2 : ℝ) ^ ((F.emax : ℤ) - 1) = 2 * 2 ^ ((F.emax : ℤ) - 2) := by
    rw [← zpow_one_add₀ (by norm_num)]; congr 1; omega
  have pp := Binary.zpow_pos' ((F.emax : ℤ) - 2)
  have hL := F.largest_ge
  have hL0 := F.largest_pos.le
  have hdb : |d - b| ≤ 2 ^ ((F.emax : ℤ) - 1) := by
    have := abs_sub d b
    rw [pe2]; linarith
  have hu0 := F.arith.unit_pos
  have hu1 := F.arith.unit_le
  have hβ := Binary.zpow_pos' F.bottom
  have hβ1 : (2 : ℝ) ^ F.bottom * (2 ^ F.emax + 1) ≤ 1 := by
    have h4 := F.prec_ge
    have h5 := F.emax_ge
    have q1 : (2 : ℝ) ^ F.bottom * 2 ^ F.emax ≤ 1 / 2 := by
      rw [← zpow_natCast, ← zpow_add₀ (by norm_num)]
      calc (2 : ℝ) ^ (F.bottom + (F.emax : ℤ)) ≤ 2 ^ (-1 : ℤ) :=
            zpow_le_zpow_right₀ (by norm_num) (by unfold IeeeFormat.bottom; omega)
        _ = 1 / 2 := by norm_num
    have q2 : (2 : ℝ) ^ F.bottom ≤ 1 / 2 := by
      calc (2 : ℝ) ^ F.bottom ≤ 2 ^ (-1 : ℤ) := zpow_le_zpow_right₀ (by norm_num) (by unfold IeeeFormat.bottom; omega)
        _ = 1 / 2 := by norm_num
    linarith
  have hone : (4 : ℝ) ≤ 2 ^ ((F.emax : ℤ) - 2) := by
    have h5 := F.emax_ge
    have h4 := F.prec_ge
    calc (4 : ℝ) = 2 ^ (2 : ℤ) := by norm_num
      _ ≤ _ := zpow_le_zpow_right₀ (by norm_num) (by omega)
  have m1 := Ieee.sub_number n1.2 n0.2 (by linarith)
  have m2 := Ieee.sub_number n1.1 n0.1 (by rw [abs_of_nonneg (by linarith)]; linarith)
  have m3 := Ieee.sub_number hx n0.1 (by rw [abs_of_nonneg (by linarith)]; linarith)
  have p2 := F.arith.fl_pos (sub_pos.2 hac)
  obtain ⟨d1, hd1, f1⟩ := F.arith.fl_factor (d - b)
  obtain ⟨d2, hd2, f2⟩ := F.arith.fl_factor (c - a)
  obtain ⟨d3, hd3, f3⟩ := F.arith.fl_factor (z - a)
  rw [f1] at m1
  rw [f2] at m2 p2
  rw [f3] at m3
  have hfit4 : |(d - b) * (1 + d1) / ((c - a) * (1 + d2))| ≤ F.largest := by
    rw [abs_div, abs_of_pos p2, div_le_iff₀ p2, abs_mul]
    have hca : 0 < c - a := sub_pos.2 hac
    have g1 : |1 + d1| ≤ 1.001 := by have := abs_le.1 hd1; rw [abs_le]; constructor <;> linarith
    have g2 : 0.999 ≤ 1 + d2 := by have := abs_le.1 hd2; linarith
    calc |d - b| * |1 + d1| ≤ 2 ^ ((F.emax : ℤ) - 1) * (c - a) * 1.001 := by gcongr
      _ ≤ 2 ^ F.emax * ((c - a) * 0.999) := by
          rw [pe]
          have := mul_pos (Binary.zpow_pos' ((F.emax : ℤ) - 1)) hca
          linarith
      _ ≤ F.largest * ((c - a) * (1 + d2)) := by gcongr
  have m4 := Ieee.div_round m1 m2 p2.ne' hfit4
  obtain ⟨d4, η4, hd4, hη4, f4⟩ := round_parts (F := F) ((d - b) * (1 + d1) / ((c - a) * (1 + d2)))
  rw [f4] at m4
  have hβe : (2 : ℝ) ^ F.bottom * (z - a + 1) ≤ 1 := by
    refine le_trans ?_ hβ1
    exact mul_le_mul_of_nonneg_left (by linarith) hβ.le
  have hfit5 : |((d - b) * (1 + d1) / ((c - a) * (1 + d2)) * (1 + d4) + η4) * ((z - a) * (1 + d3))| ≤ F.largest := by
    have k := (line_parts (y₀ := b) (y₁ := d) (e := z - a) (h := c - a) (d5 := 0) (η5 := 0) (d6 := 0) hu0 hu1 hβ.le (by linarith) (by linarith)
      (sub_pos.2 hac) hd1 hd2 hd3 hd4 (by rw [abs_zero]; exact hu0.le) (by rw [abs_zero]; exact hu0.le) hη4
      (by rw [abs_zero]; positivity)).1
    rw [add_zero, add_zero, mul_one] at k
    refine le_trans k ?_
    linarith
  have m5 := Ieee.mul_round m4 m3 hfit5
  obtain ⟨d5, η5, hd5, hη5, f5⟩ := round_parts (F := F)
    (((d - b) * (1 + d1) / ((c - a) * (1 + d2)) * (1 + d4) + η4) * ((z - a) * (1 + d3)))
  rw [f5] at m5
  have key := fun d6 (hd6 : |d6| ≤ roundoff F) => line_parts (y₀ := b) (y₁ := d) (e := z - a) (h := c - a) (d6 := d6)
    hu0 hu1 hβ.le (by linarith) (by linarith) (sub_pos.2 hac) hd1 hd2 hd3 hd4 hd5 hd6 hη4 hη5
  have m6 := Ieee.add_number n0.2 m5 (by
    have k := (key 0 (by rw [abs_zero]; exact hu0.le)).1
    refine le_trans (abs_add_le _ _) ?_
    linarith)
  obtain ⟨d6, hd6, f6⟩ := F.arith.fl_factor
    (b + ((((d - b) * (1 + d1) / ((c - a) * (1 + d2)) * (1 + d4) + η4) * ((z - a) * (1 + d3))) * (1 + d5) + η5))
  rw [f6] at m6
  refine ⟨_, _, ev, m6, ?_⟩
  exact (key d6 hd6).2

/-- In `f64`, the line from `(0, 1)` to `(1, 0)` at the smallest positive number, `2 ^ -1074`. -/
example : ∃ x v : Ieee .binary64, ∃ r : ℝ, IsNumber x (2 ^ (-1074 : ℤ)) ∧
    evaluate (Interpolator.linear (Ieee .binary64)) [(0, 1), (1, 0)] x = .ok (.ok v) ∧ IsNumber v r ∧ |r - 1| ≤ 1 / 2 ^ 50 := by
  have hb : IeeeFormat.binary64.bottom = -1074 := by norm_num [IeeeFormat.bottom, IeeeFormat.binary64]
  have hp := Binary.zpow_pos' (-1074)
  have hsmall : (2 : ℝ) ^ (-1074 : ℤ) ≤ 1 / 2 ^ 60 := by
    calc (2 : ℝ) ^ (-1074 : ℤ) ≤ 2 ^ (-60 : ℤ) := zpow_le_zpow_right₀ (by norm_num) (by norm_num)
      _ = 1 / 2 ^ 60 := by norm_num
  have h1 : (1 : ℝ) ≤ 2 ^ ((IeeeFormat.binary64.emax : ℤ) - 2) :=
    one_le_zpow₀ (by norm_num) (by norm_num [IeeeFormat.binary64])
  have h1' : (1 : ℝ) ≤ 2 ^ ((IeeeFormat.binary64.emax : ℤ) - 1) :=
    one_le_zpow₀ (by norm_num) (by norm_num [IeeeFormat.binary64])
  obtain ⟨x, hx⟩ := IeeeFormat.exists_number (F := .binary64) (x := 2 ^ (-1074 : ℤ))
    ⟨IeeeFormat.pow_range _ _ hb.le, by
      rw [abs_of_pos hp]
      exact le_trans (le_trans hsmall (by norm_num)) (le_trans h1' half_le_largest)⟩
  have n0 := Ieee.zero_number (F := .binary64)
  have n1 := Ieee.one_number (F := .binary64)
  obtain ⟨v, r, hv, hr, he⟩ := C96_linear [((0 : Ieee .binary64), (1 : Ieee .binary64)), (1, 0)]
    [((0 : ℝ), (1 : ℝ)), (1, 0)] (.cons ⟨n0, n1⟩ (.cons ⟨n1, n0⟩ .nil)) (by simp [StrictlyIncreasing]) 0 0 1 1 0
    (2 ^ (-1074 : ℤ)) ⟨rfl, rfl⟩ x hx (Or.inl hp) (le_trans hsmall (by norm_num)) (by simpa using h1) (by rw [abs_zero]; positivity)
    (by simpa using h1') (by simpa using one_le_pow₀ (by norm_num : (1 : ℝ) ≤ 2))
  refine ⟨x, v, r, hx, hv, hr, ?_⟩
  have hu : roundoff .binary64 = 1 / 2 ^ 53 := by norm_num [roundoff, IeeeFormat.binary64]
  rw [hu, hb] at he
  simp only [lineThrough] at he
  generalize (2 : ℝ) ^ (-1074 : ℤ) = t at *
  have e : (1 : ℝ) + (0 - 1) * ((t - 0) / (1 - 0)) = 1 - t := by ring
  rw [e, abs_of_nonneg (a := 1 - t) (by linarith [show (1 : ℝ) / 2 ^ 60 ≤ 1 by norm_num])] at he
  have t2 := abs_add_le (r - (1 - t)) (-t)
  rw [abs_neg, abs_of_pos hp, show r - (1 - t) + -t = r - 1 by ring] at t2
  norm_num at he hsmall ⊢
  nlinarith

end Qlab.Props
