import Verif.Props.Stepping
import Verif.Props.Calendars

/-!
# How many business days a period has (C116)

`n` days contain `n / 7` whole weeks and `n % 7` further days.
-/

namespace Qlab.Props

open Spec NaiveDate

/-! ## Counting days by weekday -/

/-- Any seven consecutive numbers contain one of every residue. -/
theorem exists_residue (a r : Int) (h0 : 0 ≤ r) (h7 : r < 7) : ∃ s, a ≤ s ∧ s < a + 7 ∧ s % 7 = r :=
  ⟨a + (r - a) % 7, by omega, by omega, by omega⟩

section
variable {c : Calendar}

theorem openDays_succ_le (c : Calendar) (a : Int) (n : Nat) : openDays c a (a + (n + 1 : Nat)) ≤ openDays c a (a + n) + 1 := by
  have h := openDays_add c a (a + n) (a + (n + 1 : Nat)) (by omega) (by omega)
  have := openDays_le c (a + n) (a + (n + 1 : Nat)) (by omega)
  omega

theorem openDays_mono (c : Calendar) {a b d : Int} (h1 : a ≤ b) (h2 : b ≤ d) : openDays c a b ≤ openDays c a d := by
  have := openDays_add c a b d h1 h2
  omega

/-- One closed day inside leaves at most one less than the number of days. -/
theorem openDays_skip (c : Calendar) {a s b : Int} (h1 : a ≤ s) (h2 : s < b) (hs : openDays c s (s + 1) = 0) :
    openDays c a b = openDays c a s + openDays c (s + 1) b := by
  rw [← openDays_add c a s b h1 (by omega), ← openDays_add c s (s + 1) b (by omega) (by omega), hs, Nat.zero_add]

theorem openDays_one_zero {c : Calendar} {s : Int} (h : ∀ d : Date, Date.serialDate d = s → ¬ Open c d) :
    openDays c s (s + 1) = 0 := by
  classical
  unfold openDays
  rw [Finset.card_eq_zero, Finset.filter_eq_empty_iff]
  rintro t ht ⟨d, hd, ho⟩
  rw [Finset.mem_Ico] at ht
  exact h d (by omega) ho

/-- A calendar closed on two residues of the serial number: what a window can hold. -/
theorem openDays_residues {c : Calendar} {p q : Int} (hp : 0 ≤ p ∧ p < 7) (hq : 0 ≤ q ∧ q < 7) (hpq : p ≠ q)
    (hc : ∀ d : Date, Date.serialDate d % 7 = p ∨ Date.serialDate d % 7 = q → ¬ Open c d) (a : Int) (n : Nat) :
    openDays c a (a + n) ≤ 5 * (n / 7) + min (n % 7) 5 := by
  have zero : ∀ s : Int, s % 7 = p ∨ s % 7 = q → openDays c s (s + 1) = 0 := fun s hs =>
    openDays_one_zero fun d hd => hc d (by rw [hd]; exact hs)
  -- one week
  have week : ∀ a : Int, openDays c a (a + 7) ≤ 5 := by
    intro a
    obtain ⟨s, s1, s2, s3⟩ := exists_residue a p hp.1 hp.2
    obtain ⟨t, t1, t2, t3⟩ := exists_residue a q hq.1 hq.2
    have hst : s ≠ t := by rintro rfl; exact hpq (s3.symm.trans t3)
    rcases lt_or_gt_of_ne hst with h | h
    · rw [openDays_skip c s1 s2 (zero s (.inl s3)), openDays_skip c (show s + 1 ≤ t by omega) t2 (zero t (.inr t3))]
      have := openDays_le c a s s1
      have := openDays_le c (s + 1) t (by omega)
      have := openDays_le c (t + 1) (a + 7) (by omega)
      omega
    · rw [openDays_skip c t1 t2 (zero t (.inr t3)), openDays_skip c (show t + 1 ≤ s by omega) s2 (zero s (.inl s3))]
      have := openDays_le c a t t1
      have := openDays_le c (t + 1) s (by omega)
      have := openDays_le c (s + 1) (a + 7) (by omega)
      omega
  have weeks : ∀ (w : Nat) (a : Int), openDays c a (a + (7 * w : Nat)) ≤ 5 * w := by
    intro w
    induction w with
    | zero =>
      intro a
      have := openDays_le c a (a + (7 * 0 : Nat)) (by omega)
      omega
    | succ w ih =>
      intro a
      have h := openDays_add c a (a + 7) (a + (7 * (w + 1) : Nat)) (by omega) (by omega)
      have h2 := ih (a + 7)
      rw [show a + 7 + ((7 * w : Nat) : Int) = a + (7 * (w + 1) : Nat) by omega] at h2
      have := week a
      omega
  have h := openDays_add c a (a + (7 * (n / 7) : Nat)) (a + n) (by omega) (by omega)
  have h1 := weeks (n / 7) a
  have h2 := openDays_le c (a + (7 * (n / 7) : Nat)) (a + n) (by omega)
  have h3 := week (a + (7 * (n / 7) : Nat))
  have h4 := openDays_mono c (a := a + (7 * (n / 7) : Nat)) (b := a + n) (d := a + (7 * (n / 7) : Nat) + 7) (by omega) (by omega)
  omega

end

theorem openDays_full {c : Calendar} {a b : Int} (h : a ≤ b)
    (hc : ∀ s, a ≤ s → s < b → ∃ d : Date, Date.serialDate d = s ∧ Open c d) : (openDays c a b : Int) = b - a := by
  classical
  unfold openDays
  rw [Finset.filter_true_of_mem, Int.card_Ico]
  · omega
  · intro s hs
    rw [Finset.mem_Ico] at hs
    exact hc s hs.1 hs.2

/-- A calendar closed only on two residues of the serial number: what a window must hold. -/
theorem residues_openDays {c : Calendar} {p q : Int} (hp : 0 ≤ p ∧ p < 7) (hq : 0 ≤ q ∧ q < 7) {lo hi : Int}
    (hc : ∀ s, lo ≤ s → s < hi → s % 7 ≠ p → s % 7 ≠ q → ∃ d : Date, Date.serialDate d = s ∧ Open c d)
    (a : Int) (n : Nat) (ha : lo ≤ a) (hn : a + n ≤ hi) :
    5 * (n / 7) + (n % 7 - 2) ≤ openDays c a (a + n) := by
  -- up to a week: at most two days are lost
  have part : ∀ (a : Int) (n : Nat), n ≤ 7 → lo ≤ a → a + n ≤ hi → n ≤ openDays c a (a + n) + 2 := by
    intro a n h7 ha hn
    have full : ∀ x y : Int, a ≤ x → x ≤ y → y ≤ a + n → (∀ s, x ≤ s → s < y → s % 7 ≠ p ∧ s % 7 ≠ q) →
        (openDays c x y : Int) = y - x := fun x y h1 h2 h3 h4 =>
      openDays_full h2 fun s s1 s2 => hc s (by omega) (by omega) (h4 s s1 s2).1 (h4 s s1 s2).2
    obtain ⟨s, s1, s2, s3⟩ := exists_residue a p hp.1 hp.2
    obtain ⟨t, t1, t2, t3⟩ := exists_residue a q hq.1 hq.2
    have key : ∀ u v : Int, a ≤ u → u ≤ v → v < a + 7 →
        (∀ z, a ≤ z → z < a + 7 → z ≠ u → z ≠ v → z % 7 ≠ p ∧ z % 7 ≠ q) → n ≤ openDays c a (a + n) + 2 := by
      intro u v hu huv hv hz
      have f1 := full a (min u (a + n)) le_rfl (by omega) (by omega) fun z z1 z2 => hz z z1 (by omega) (by omega) (by omega)
      have f2 := full (min (u + 1) (a + n)) (min (max v (u + 1)) (a + n)) (by omega) (by omega) (by omega) fun z z1 z2 =>
        hz z (by omega) (by omega) (by omega) (by omega)
      have f3 := full (min (v + 1) (a + n)) (a + n) (by omega) (by omega) (by omega) fun z z1 z2 =>
        hz z (by omega) (by omega) (by omega) (by omega)
      have e1 := openDays_add c a (min u (a + n)) (a + n) (by omega) (by omega)
      have e2 := openDays_add c (min u (a + n)) (min (u + 1) (a + n)) (a + n) (by omega) (by omega)
      have e3 := openDays_add c (min (u + 1) (a + n)) (min (max v (u + 1)) (a + n)) (a + n) (by omega) (by omega)
      by_cases huv' : u = v
      · subst huv'
        omega
      · have e4 := openDays_add c (min (max v (u + 1)) (a + n)) (min (v + 1) (a + n)) (a + n) (by omega) (by omega)
        omega
    have res : ∀ z, a ≤ z → z < a + 7 → z ≠ s → z ≠ t → z % 7 ≠ p ∧ z % 7 ≠ q := fun z z1 z2 z3 z4 =>
      ⟨by omega, by omega⟩
    rcases le_total s t with h | h
    · exact key s t s1 h t2 res
    · exact key t s t1 h s2 fun z z1 z2 z3 z4 => res z z1 z2 z4 z3
  have weeks : ∀ (w : Nat) (a : Int), lo ≤ a → a + (7 * w : Nat) ≤ hi → 5 * w ≤ openDays c a (a + (7 * w : Nat)) := by
    intro w
    induction w with
    | zero => intro a _ _; omega
    | succ w ih =>
      intro a ha hn
      have h := openDays_add c a (a + (7 : Nat)) (a + (7 * (w + 1) : Nat)) (by omega) (by omega)
      have h2 := ih (a + 7) (by omega) (by omega)
      rw [show a + 7 + ((7 * w : Nat) : Int) = a + (7 * (w + 1) : Nat) by omega] at h2
      have := part a 7 le_rfl ha (by omega)
      push_cast at h this h2 ⊢
      omega
  have h := openDays_add c a (a + (7 * (n / 7) : Nat)) (a + n) (by omega) (by omega)
  have h1 := weeks (n / 7) a ha (by omega)
  have h2 := part (a + (7 * (n / 7) : Nat)) (n % 7) (by omega) (by omega) (by omega)
  rw [show a + ((7 * (n / 7) : Nat) : Int) + (n % 7 : Nat) = a + n by omega] at h2
  omega

theorem serial_mod_of_weekday (d : Date) : (d.weekday.fromMonday : Int) = (Date.serialDate d - 1) % 7 := by
  have := weekday_fromMonday d
  unfold Date.serialDate
  omega

theorem fromMonday_inj : ∀ w v : Weekday, w.fromMonday = v.fromMonday → w = v := by
  intro w v; cases w <;> cases v <;> decide

theorem fromMonday_lt : ∀ w : Weekday, w.fromMonday < 7 := by intro w; cases w <;> decide

theorem weekday_closed {c : Calendar} {w v : Weekday} (hwv : w ≠ v)
    (hc : ∀ d : Date, d.weekday = w ∨ d.weekday = v → ¬ Open c d) (a : Int) (n : Nat) :
    openDays c a (a + n) ≤ 5 * (n / 7) + min (n % 7) 5 := by
  have hw := fromMonday_lt w
  have hv := fromMonday_lt v
  have hne : w.fromMonday ≠ v.fromMonday := fun h => hwv (fromMonday_inj _ _ h)
  refine openDays_residues (p := (w.fromMonday + 1 : Int) % 7) (q := (v.fromMonday + 1 : Int) % 7) (by omega) (by omega)
    (by omega) (fun d hd => hc d ?_) a n
  have := serial_mod_of_weekday d
  have hl := fromMonday_lt d.weekday
  rcases hd with h | h
  · exact .inl (fromMonday_inj _ _ (by omega))
  · exact .inr (fromMonday_inj _ _ (by omega))

theorem count_eq {c : Calendar} {f t : Date} {i l : Option Bool} {n : Int} (hft : f ≤ t)
    (h : c.businessDaysBetween f t i l = .ok n) :
    endCounted t l ≤ 95745399 ∧ ∃ N : Nat, endCounted t l - firstCounted f i = N ∧
      endCounted t l = firstCounted f i + N ∧ n = openDays c (firstCounted f i) (firstCounted f i + N) := by
  have e := C25_count c f t i l n hft h
  unfold Calendar.businessDaysBetween at h
  rw [if_neg ((NaiveDate.not_lt_iff _ _).2 hft)] at h
  have h2 := (forward_eq_ok c f t i l n).1 h
  refine ⟨h2.1, (endCounted t l - firstCounted f i).toNat, by omega, by omega, ?_⟩
  rw [e, show firstCounted f i + ((endCounted t l - firstCounted f i).toNat : Int) = endCounted t l by omega]

theorem weekendsOnly_openDays (a : Int) (m : Nat) (hlo : -95746129 ≤ a) (hhi : a + m ≤ 95745400) :
    5 * (m / 7) + (m % 7 - 2) ≤ openDays .weekendsOnly a (a + m) ∧
    openDays .weekendsOnly a (a + m) ≤ 5 * (m / 7) + min (m % 7) 5 := by
  refine ⟨residues_openDays (p := 6) (q := 0) (by omega) (by omega) (lo := -95746129) (hi := 95745400)
    (fun s s1 s2 s3 s4 => ?_) a m hlo hhi, weekday_closed (w := .Sat) (v := .Sun) (by decide) (fun d hd ho => ?_) a m⟩
  · obtain ⟨d, -, hd⟩ := ofDays_isSome s s1 (by omega)
    refine ⟨d, hd, ?_⟩
    have e := serial_mod_of_weekday d
    have hd' : Date.serialDate d = s := hd
    have : isWeekend d = false := by
      rw [Bool.eq_false_iff]
      intro hw
      have := (isWeekend_iff d).1 hw
      omega
    simp [Open, Calendar.weekendsOnly, this]
  · have hw : IsSaturdayOrSunday d := hd
    have := isWeekend_of_saturdayOrSunday hw
    simp [Open, Calendar.weekendsOnly, this] at ho

/-! ## C116 -/

/-- **C116.** A calendar that is closed on two of the weekdays has at most five business days in a week, and never
more than that in a part of a week; over `N` days that makes `5 (N / 7) + min (N % 7) 5`. -/
theorem C116_two_closed_weekdays (c : Calendar) (w v : Weekday) (hwv : w ≠ v)
    (hc : ∀ d : Date, d.weekday = w ∨ d.weekday = v → ¬ Open c d) (f t : Date) (i l : Option Bool) (n N : Int)
    (hft : f ≤ t) (h : c.businessDaysBetween f t i l = .ok n) (hN : N = endCounted t l - firstCounted f i) :
    n ≤ 5 * (N / 7) + min (N % 7) 5 := by
  obtain ⟨-, m, e1, e2, e3⟩ := count_eq hft h
  have := weekday_closed hwv hc (firstCounted f i) m
  omega

/-- **C116.** So it is with every shipped calendar and market but the Russian exchange, Israel included. -/
theorem C116_shipped (s : Shipped) (hs : s ≠ .russia (some .Exchange)) (f t : Date) (i l : Option Bool) (n N : Int)
    (hft : f ≤ t) (h : s.calendar.businessDaysBetween f t i l = .ok n) (hN : N = endCounted t l - firstCounted f i) :
    n ≤ 5 * (N / 7) + min (N % 7) 5 := by
  by_cases hi : s = .israel
  · subst hi
    exact C116_two_closed_weekdays _ .Fri .Sat (by decide) (fun d hd ho => by
      have := C28_israel d hd
      unfold Open at ho
      unfold Closed at this
      rw [ho] at this
      cases this) f t i l n N hft h hN
  · exact C116_two_closed_weekdays _ .Sat .Sun (by decide) (fun d hd => C28_weekend_closed s d hi hs hd) f t i l n N hft h hN

/-- **C116.** The Russian exchange is an exception: six business days from Monday 23 to Sunday 29 April 2018. -/
theorem C116_russian_exchange : (Shipped.russia (some .Exchange)).calendar.businessDaysBetween
    ⟨2018, 4, 22, by decide⟩ ⟨2018, 4, 29, by decide⟩ (some true) (some true) = .ok 6 := by decide +kernel

/-- **C116.** With weekends only, whole weeks have exactly five business days each, and what is left over loses at
most two days. -/
theorem C116_weekends_only (f t : Date) (i l : Option Bool) (n N : Int) (hft : f ≤ t)
    (h : Calendar.weekendsOnly.businessDaysBetween f t i l = .ok n) (hN : N = endCounted t l - firstCounted f i) :
    5 * (N / 7) + max (N % 7 - 2) 0 ≤ n ∧ n ≤ 5 * (N / 7) + min (N % 7) 5 := by
  obtain ⟨e0, m, e1, e2, e3⟩ := count_eq hft h
  have hf := f.serial_ge
  have hlo : -95746129 ≤ firstCounted f i := by
    unfold firstCounted Date.serialDate
    split <;> omega
  have := weekendsOnly_openDays (firstCounted f i) m hlo (by omega)
  omega

/-- **C116.** A calendar that opens only when another does counts no more business days. -/
theorem C116_mono (a b : Calendar) (hab : ∀ d, Open a d → Open b d) (f t : Date) (i l : Option Bool) (n m : Int)
    (hft : f ≤ t) (ha : a.businessDaysBetween f t i l = .ok n) (hb : b.businessDaysBetween f t i l = .ok m) : n ≤ m := by
  classical
  rw [C25_count a f t i l n hft ha, C25_count b f t i l m hft hb]
  unfold openDays
  refine Int.ofNat_le.2 (Finset.card_le_card fun s hs => ?_)
  rw [Finset.mem_filter] at hs ⊢
  obtain ⟨h1, d, h2, h3⟩ := hs
  exact ⟨h1, d, h2, hab d h3⟩

/-- **C116.** A joint calendar counts no more business days than either part, and at least as many as must be in
common: over `N` days the counts of the parts add up to at most its own count plus `N`. -/
theorem C116_joint (a b : Calendar) (f t : Date) (i l : Option Bool) (na nb n N : Int) (hft : f ≤ t)
    (ha : a.businessDaysBetween f t i l = .ok na) (hb : b.businessDaysBetween f t i l = .ok nb)
    (h : (a.joint b).businessDaysBetween f t i l = .ok n) (hN : N = endCounted t l - firstCounted f i) :
    n ≤ na ∧ n ≤ nb ∧ na + nb ≤ n + N := by
  classical
  subst hN
  refine ⟨C116_mono _ a (fun d hd => ((C22_joint_open a b d).1 hd).1) f t i l n na hft h ha,
    C116_mono _ b (fun d hd => ((C22_joint_open a b d).1 hd).2) f t i l n nb hft h hb, ?_⟩
  obtain ⟨-, m, e1, e2, e3⟩ := count_eq hft ha
  obtain ⟨-, m', e1', e2', e3'⟩ := count_eq hft hb
  obtain ⟨-, m'', e1'', e2'', e3''⟩ := count_eq hft h
  obtain rfl : m' = m := by omega
  obtain rfl : m'' = m' := by omega
  rw [e1, e3, e3', e3'']
  set x := firstCounted f i
  have key : ∀ P Q R : Int → Prop, (∀ s, P s → Q s → R s) →
      ((Finset.Ico x (x + m'')).filter P).card + ((Finset.Ico x (x + m'')).filter Q).card ≤
        ((Finset.Ico x (x + m'')).filter R).card + m'' := by
    intro P Q R hR
    have h1 := Finset.card_union_add_card_inter ((Finset.Ico x (x + m'')).filter P) ((Finset.Ico x (x + m'')).filter Q)
    have h2 : (((Finset.Ico x (x + m'')).filter P) ∪ ((Finset.Ico x (x + m'')).filter Q)).card ≤ m'' := by
      refine (Finset.card_le_card (t := Finset.Ico x (x + m'')) ?_).trans (by rw [Int.card_Ico]; omega)
      exact Finset.union_subset (Finset.filter_subset _ _) (Finset.filter_subset _ _)
    have h3 : (((Finset.Ico x (x + m'')).filter P) ∩ ((Finset.Ico x (x + m'')).filter Q)).card ≤
        ((Finset.Ico x (x + m'')).filter R).card := by
      refine Finset.card_le_card fun s hs => ?_
      rw [Finset.mem_inter, Finset.mem_filter, Finset.mem_filter] at hs
      exact Finset.mem_filter.2 ⟨hs.1.1, hR s hs.1.2 hs.2.2⟩
    omega
  have := key (fun s => ∃ d : Date, Date.serialDate d = s ∧ Open a d) (fun s => ∃ d : Date, Date.serialDate d = s ∧ Open b d)
    (fun s => ∃ d : Date, Date.serialDate d = s ∧ Open (a.joint b) d) (by
      rintro s ⟨d, hd, ho⟩ ⟨d', hd', ho'⟩
      obtain rfl : d = d' := serial_inj (hd.trans hd'.symm)
      exact ⟨d, hd, (C22_joint_open a b d).2 ⟨ho, ho'⟩⟩)
  unfold openDays
  exact_mod_cast this

/-- **C116.** Moving ahead by business days with a calendar that is closed on two weekdays takes a week for every
five of them: `n + 1` business days ahead is at least `7 (n / 5) + n % 5 + 1` days later. -/
theorem C116_ahead (c : Calendar) (w v : Weekday) (hwv : w ≠ v)
    (hc : ∀ d : Date, d.weekday = w ∨ d.weekday = v → ¬ Open c d) (n : Nat) (d r : Date)
    (h : businessDaysAhead c (n + 1) d = .ok (some r)) : 7 * ((n : Int) / 5) + n % 5 + 1 ≤ Date.sub r d := by
  obtain ⟨h1, -, -, h4⟩ := (C100_steps c n d r).1 h
  have hs := (C03_serial_lt _ _).1 h1
  rw [C04_sub_serial]
  obtain ⟨m, hm⟩ : ∃ m : Nat, Date.serialDate r - Date.serialDate d = m := ⟨(Date.serialDate r - Date.serialDate d).toNat, by omega⟩
  have := weekday_closed hwv hc (Date.serialDate d + 1) m
  rw [show Date.serialDate d + 1 + (m : Int) = Date.serialDate r + 1 by omega, h4] at this
  omega

/-- **C116.** With weekends only, `5 n` business days after a weekday is the same weekday `n` weeks later. -/
theorem C116_weeks_ahead (n : Nat) (d r : Date) (hd : IsWorkday d) (hn : 0 < n) (hr : Date.sub r d = 7 * n) :
    businessDaysAhead .weekendsOnly (5 * n) d = .ok (some r) := by
  have hsub := hr
  rw [C04_sub_serial] at hr
  obtain ⟨k, hk⟩ : ∃ k, 5 * n = k + 1 := ⟨5 * n - 1, by omega⟩
  rw [hk, C100_steps]
  have o : Open .weekendsOnly r := by
    have e1 := serial_mod_of_weekday d
    have e2 := serial_mod_of_weekday r
    have h4 := (isWorkday_iff d).1 hd
    have : isWeekend r = false := by
      rw [Bool.eq_false_iff]
      intro hw
      have := (isWeekend_iff r).1 hw
      omega
    simp [Open, Calendar.weekendsOnly, this]
  refine ⟨(C03_serial_lt _ _).2 (by omega), o, fun x _ _ hx => (nomatch hx), ?_⟩
  have h1 := d.serial_ge
  have h2 := r.serial_le
  have := weekendsOnly_openDays (Date.serialDate d + 1) (7 * n) (by unfold Date.serialDate; omega)
    (by unfold Date.serialDate at *; omega)
  rw [show Date.serialDate d + 1 + ((7 * n : Nat) : Int) = Date.serialDate r + 1 by omega] at this
  omega

/-- Germany from Saturday 1 April to Sunday 30 April 2023, both ends counted: 18 of 30 days, at most 22. -/
example : (18 : Int) ≤ 5 * (30 / 7) + min (30 % 7) 5 :=
  C116_shipped (.germany none) (by decide) ⟨2023, 4, 1, by decide⟩ ⟨2023, 4, 30, by decide⟩ (some false) (some true) 18 30
    (by decide) (by decide +kernel) (by decide)

/-- The same with weekends only: 20. -/
example : 5 * ((30 : Int) / 7) + max (30 % 7 - 2) 0 ≤ 20 ∧ (20 : Int) ≤ 5 * (30 / 7) + min (30 % 7) 5 :=
  C116_weekends_only ⟨2023, 4, 1, by decide⟩ ⟨2023, 4, 30, by decide⟩ (some false) (some true) 20 30
    (by decide) (by decide +kernel) (by decide)

/-- Germany and the United Kingdom in May 2023: 22 and 20 days, 20 in common. -/
example : (20 : Int) ≤ 22 ∧ (20 : Int) ≤ 20 ∧ (22 : Int) + 20 ≤ 20 + 31 :=
  C116_joint (Shipped.germany none).calendar (Shipped.unitedKingdom none).calendar ⟨2023, 5, 1, by decide⟩
    ⟨2023, 5, 31, by decide⟩ (some false) (some true) 22 20 20 31 (by decide) (by decide +kernel) (by decide +kernel)
    (by decide +kernel) (by decide)

/-- Two business days after Wednesday 5 April 2023, over Easter in Germany. -/
example : 7 * ((1 : Int) / 5) + 1 % 5 + 1 ≤ Date.sub (⟨2023, 4, 11, by decide⟩ : Date) ⟨2023, 4, 5, by decide⟩ :=
  C116_ahead (Shipped.germany none).calendar .Sat .Sun (by decide)
    (fun d hd => C28_weekend_closed (.germany none) d (by decide) (by decide) hd) 1 _ _ (by decide +kernel)

/-- Ten business days after Wednesday 5 April 2023. -/
example := C116_weeks_ahead 2 ⟨2023, 4, 5, by decide⟩ ⟨2023, 4, 19, by decide⟩ (by unfold IsWorkday; decide) (by decide)
  (by decide +kernel)

/-- Two closed weekdays, and a calendar with more holidays: Germany against weekends only in April 2023. -/
example : (18 : Int) ≤ 5 * (30 / 7) + min (30 % 7) 5 ∧ (18 : Int) ≤ 20 :=
  ⟨C116_two_closed_weekdays (Shipped.germany none).calendar .Sat .Sun (by decide)
    (fun d hd => C28_weekend_closed (.germany none) d (by decide) (by decide) hd) ⟨2023, 4, 1, by decide⟩
    ⟨2023, 4, 30, by decide⟩ (some false) (some true) 18 30 (by decide) (by decide +kernel) (by decide),
  C116_mono (Shipped.germany none).calendar .weekendsOnly (fun d hd => by
      have h : ¬ IsSaturdayOrSunday d := fun h => C28_weekend_closed (.germany none) d (by decide) (by decide) h hd
      unfold IsSaturdayOrSunday at h
      show (Rust.ok (!isWeekend d)) = .ok true
      unfold isWeekend
      revert h
      cases d.weekday <;> simp) ⟨2023, 4, 1, by decide⟩ ⟨2023, 4, 30, by decide⟩ (some false) (some true) 18 20
    (by decide) (by decide +kernel) (by decide +kernel)⟩

end Qlab.Props
