import Verif.Model.FileName
import Verif.Spec.FileName
import Mathlib.Data.Nat.Digits.Lemmas
import Mathlib.Tactic.Linarith
import Mathlib.Tactic.NormNum
import Mathlib.Tactic.FinCases
import Mathlib.Tactic.IntervalCases

/-!
# C47, C54, C57: names of output files, joint-DOS output, smearing widths
-/

namespace Phono3py.Props

open Phono3py Phono3py.Spec

/-- The ten digits. -/
def tenDigits : List Char := ['0', '1', '2', '3', '4', '5', '6', '7', '8', '9']

theorem digitChar10_mem {d : Nat} (h : d < 10) : digitChar10 d ∈ tenDigits := by
  interval_cases d <;> decide

theorem digitChar10_inj {d e : Nat} (hd : d < 10) (he : e < 10)
    (h : digitChar10 d = digitChar10 e) : d = e := by
  interval_cases d <;> interval_cases e <;> first | rfl | (exact absurd h (by decide))

theorem map_inj_on {l l' : List Nat} (hl : ∀ d ∈ l, d < 10) (hl' : ∀ d ∈ l', d < 10)
    (h : l.map digitChar10 = l'.map digitChar10) : l = l' := by
  induction l generalizing l' with
  | nil => cases l' with
    | nil => rfl
    | cons => simp at h
  | cons x l ih => cases l' with
    | nil => simp at h
    | cons y l' =>
      simp only [List.map_cons, List.cons.injEq] at h
      rw [digitChar10_inj (hl x (by simp)) (hl' y (by simp)) h.1,
        ih (fun d hd => hl d (by simp [hd])) (fun d hd => hl' d (by simp [hd])) h.2]

theorem digits_lt (n : Nat) : ∀ d ∈ (Nat.digits 10 n).reverse, d < 10 := by
  intro d hd
  exact Nat.digits_lt_base (by norm_num) (List.mem_reverse.1 hd)

theorem showNat_digits (n : Nat) : ∀ c ∈ showNat n, c ∈ tenDigits := by
  intro c hc
  unfold showNat at hc
  split at hc
  · simp at hc; subst hc; decide
  · obtain ⟨d, hd, rfl⟩ := List.mem_map.1 hc
    exact digitChar10_mem (digits_lt n d hd)

theorem showNat_ne_nil (n : Nat) : showNat n ≠ [] := by
  unfold showNat
  split
  · simp
  · rename_i h
    simpa using Nat.digits_ne_nil_iff_ne_zero.2 h

theorem showNat_zero {n : Nat} (h : showNat n = ['0']) : n = 0 := by
  by_contra hn
  unfold showNat at h
  rw [if_neg hn] at h
  have h1 : (Nat.digits 10 n).reverse.map digitChar10 = [0].map digitChar10 := h
  have h2 := map_inj_on (digits_lt n) (by simp) h1
  have h3 : Nat.digits 10 n = [0] := by
    have := congrArg List.reverse h2; simpa using this
  have := Nat.getLast_digit_ne_zero 10 hn
  simp [h3] at this

theorem showNat_inj {n m : Nat} (h : showNat n = showNat m) : n = m := by
  by_cases hn : n = 0
  · subst hn
    exact (showNat_zero (by rw [← h]; rfl)).symm
  · by_cases hm : m = 0
    · subst hm
      exact showNat_zero (by rw [h]; rfl)
    · unfold showNat at h
      rw [if_neg hn, if_neg hm] at h
      have := map_inj_on (digits_lt n) (digits_lt m) h
      have h3 : Nat.digits 10 n = Nat.digits 10 m := by
        have := congrArg List.reverse this; simpa using this
      exact Nat.digits_inj_iff.1 h3

theorem showNat_length {n m : Nat} (h : (Nat.digits 10 n).length = (Nat.digits 10 m).length) :
    (showNat n).length = (showNat m).length := by
  by_cases hn : n = 0
  · subst hn
    have : m = 0 := Nat.digits_eq_nil_iff_eq_zero.1 (by simpa using h.symm)
    subst this; rfl
  · have hm : m ≠ 0 := by rintro rfl; simp at h; exact hn (Nat.digits_eq_nil_iff_eq_zero.1 h)
    simp [showNat, hn, hm, h]

/-! ### Splitting at a separator -/

theorem peel {c : Char} {a a' r r' : List Char} (h : a ++ r = a' ++ r') (ha : c ∉ a)
    (ha' : c ∉ a') (hr : r = [] ∨ r.head? = some c) (hr' : r' = [] ∨ r'.head? = some c) :
    a = a' ∧ r = r' := by
  induction a generalizing a' with
  | nil =>
    cases a' with
    | nil => exact ⟨rfl, by simpa using h⟩
    | cons x l =>
      simp only [List.nil_append, List.cons_append] at h
      rw [h] at hr
      simp at hr
      exact absurd (by simp [hr]) ha'
  | cons y a ih =>
    cases a' with
    | nil =>
      simp only [List.nil_append, List.cons_append] at h
      rw [← h] at hr'
      simp at hr'
      exact absurd (by simp [hr']) ha
    | cons x l =>
      simp only [List.cons_append, List.cons.injEq] at h
      obtain ⟨h1, h2⟩ := ih h.2 (fun hc => ha (by simp [hc])) (fun hc => ha' (by simp [hc]))
      exact ⟨by rw [h.1, h1], h2⟩

/-! ### Values -/

theorem rstrip_keep (chars a b : List Char) (c : Char) (hc : c ∉ chars) :
    rstrip chars (a ++ c :: b) = a ++ c :: rstrip chars b := by
  have hc' : chars.contains c = false := by simpa using hc
  unfold rstrip
  rw [List.reverse_append, List.reverse_cons, List.append_assoc, List.dropWhile_append]
  split
  · rename_i he
    rw [List.isEmpty_iff] at he
    rw [he]
    rw [List.reverse_nil]
    have : ([c] ++ a.reverse).dropWhile (fun c => chars.contains c) = [c] ++ a.reverse := by
      rw [List.singleton_append, List.dropWhile_cons, hc']; rfl
    rw [this]; simp
  · simp

theorem rstrip_zeros (l : List Char) : ∃ k, l = rstrip ['0'] l ++ List.replicate k '0' := by
  unfold rstrip
  have h := List.takeWhile_append_dropWhile (p := fun c => ['0'].contains c) (l := l.reverse)
  refine ⟨(l.reverse.takeWhile (fun c => ['0'].contains c)).length, ?_⟩
  have h2 : l.reverse.takeWhile (fun c => ['0'].contains c) =
      List.replicate (l.reverse.takeWhile (fun c => ['0'].contains c)).length '0' := by
    rw [List.eq_replicate_iff]
    refine ⟨rfl, fun c hc => ?_⟩
    have := List.all_takeWhile (p := fun c => ['0'].contains c) (l := l.reverse)
    have := List.all_eq_true.1 this c hc
    simpa using this
  conv_lhs => rw [← List.reverse_reverse l, ← h, List.reverse_append]
  congr 1
  rw [h2]
  simp

theorem rstrip_subset (chars l : List Char) : ∀ c ∈ rstrip chars l, c ∈ l := by
  intro c hc
  unfold rstrip at hc
  have := (List.dropWhile_sublist (fun c => chars.contains c) (l := l.reverse)).subset
    (List.mem_reverse.1 hc)
  exact List.mem_reverse.1 this

theorem sixDigits_digits (r : Nat) : ∀ c ∈ sixDigits r, c ∈ tenDigits := by
  intro c hc
  simp only [sixDigits, List.mem_cons, List.not_mem_nil, or_false] at hc
  rcases hc with rfl | rfl | rfl | rfl | rfl | rfl <;>
    exact digitChar10_mem (Nat.mod_lt _ (by norm_num))

theorem sixDigits_inj {r s : Nat} (hr : r < 1000000) (hs : s < 1000000)
    (h : sixDigits r = sixDigits s) : r = s := by
  have hm : ∀ n, n % 10 < 10 := fun n => Nat.mod_lt _ (by norm_num)
  simp only [sixDigits, List.cons.injEq, and_true] at h
  obtain ⟨h1, h2, h3, h4, h5, h6⟩ := h
  have h1 := digitChar10_inj (hm _) (hm _) h1
  have h2 := digitChar10_inj (hm _) (hm _) h2
  have h3 := digitChar10_inj (hm _) (hm _) h3
  have h4 := digitChar10_inj (hm _) (hm _) h4
  have h5 := digitChar10_inj (hm _) (hm _) h5
  have h6 := digitChar10_inj (hm _) (hm _) h6
  omega

/-- The text of a non-negative value: its integer part and, if not empty, the point and the decimals
without trailing zeros. -/
theorem delZeros_eq {v : ℚ} (hv : 0 ≤ v) :
    delZeros v = showNat (micro v / 1000000) ++
      (if rstrip ['0'] (sixDigits (micro v % 1000000)) = [] then []
       else '.' :: rstrip ['0'] (sixDigits (micro v % 1000000))) := by
  unfold delZeros formatF
  rw [if_neg (not_lt.2 hv), rstrip_keep _ _ _ _ (by decide)]
  generalize ht : rstrip ['0'] (sixDigits (micro v % 1000000)) = t
  have hnd : ∀ c ∈ tenDigits, c ∉ ['\\', '.'] := by decide
  by_cases h : t = []
  · rw [if_pos h, h]
    obtain ⟨a, c, hac⟩ : ∃ a c, showNat (micro v / 1000000) = a ++ [c] :=
      ⟨_, _, (List.dropLast_append_getLast (showNat_ne_nil _)).symm⟩
    have hc : c ∈ tenDigits := showNat_digits (micro v / 1000000) c (by rw [hac]; simp)
    rw [hac]
    have : a ++ [c] ++ ['.'] = a ++ c :: ['.'] := by simp
    rw [this, rstrip_keep _ _ _ _ (hnd c hc)]
    simp [rstrip]
  · rw [if_neg h]
    obtain ⟨a, c, hac⟩ : ∃ a c, t = a ++ [c] :=
      ⟨_, _, (List.dropLast_append_getLast h).symm⟩
    have hc : c ∈ tenDigits := by
      apply sixDigits_digits (micro v % 1000000)
      apply rstrip_subset ['0']
      rw [ht, hac]; simp
    rw [hac]
    have : showNat (micro v / 1000000) ++ '.' :: (a ++ [c]) =
        (showNat (micro v / 1000000) ++ '.' :: a) ++ c :: [] := by simp
    rw [this, rstrip_keep _ _ _ _ (hnd c hc)]
    simp [rstrip]

theorem delZeros_chars {v : ℚ} (hv : 0 ≤ v) : ∀ c ∈ delZeros v, c ∈ '.' :: tenDigits := by
  intro c hc
  rw [delZeros_eq hv] at hc
  rcases List.mem_append.1 hc with h | h
  · exact List.mem_cons_of_mem _ (showNat_digits _ c h)
  · split at h
    · simp at h
    · rcases List.mem_cons.1 h with rfl | h
      · simp
      · exact List.mem_cons_of_mem _ (sixDigits_digits _ c (rstrip_subset _ _ c h))

theorem delZeros_inj {v w : ℚ} (hv : 0 ≤ v) (hw : 0 ≤ w) (h : delZeros v = delZeros w) :
    micro v = micro w := by
  rw [delZeros_eq hv, delZeros_eq hw] at h
  have hno : ∀ n, '.' ∉ showNat n := fun n hc => absurd (showNat_digits n _ hc) (by decide)
  have hhead : ∀ t : List Char, (if t = [] then [] else '.' :: t) = [] ∨
      (if t = [] then [] else '.' :: t).head? = some '.' := by
    intro t; split <;> simp
  obtain ⟨h1, h2⟩ := peel h (hno _) (hno _) (hhead _) (hhead _)
  have h1 := showNat_inj h1
  have h3 : rstrip ['0'] (sixDigits (micro v % 1000000)) =
      rstrip ['0'] (sixDigits (micro w % 1000000)) := by
    split at h2 <;> split at h2
    · rename_i a b; rw [a, b]
    · simp at h2
    · simp at h2
    · simpa using h2
  obtain ⟨k, hk⟩ := rstrip_zeros (sixDigits (micro v % 1000000))
  obtain ⟨l, hl⟩ := rstrip_zeros (sixDigits (micro w % 1000000))
  have hlen1 := congrArg List.length hk
  have hlen2 := congrArg List.length hl
  rw [h3] at hk hlen1
  simp only [List.length_append, List.length_replicate] at hlen1 hlen2
  have h6 : ∀ r, (sixDigits r).length = 6 := fun _ => rfl
  rw [h6] at hlen1 hlen2
  have hkl : k = l := by omega
  subst hkl
  have := sixDigits_inj (Nat.mod_lt _ (by norm_num)) (Nat.mod_lt _ (by norm_num))
    (hk.trans hl.symm)
  omega

theorem roundEven_near (x : ℚ) : |(roundEven x : ℚ) - x| ≤ 1 / 2 := by
  have h1 := Int.floor_le x
  have h2 := Int.lt_floor_add_one x
  unfold roundEven
  rw [abs_le]
  split
  · constructor <;> linarith
  · split
    · push_cast; constructor <;> linarith
    · split
      · constructor <;> linarith
      · push_cast; constructor <;> linarith

theorem roundEven_nonneg {x : ℚ} (h : 0 ≤ x) : 0 ≤ roundEven x := by
  have := Int.floor_nonneg.2 h
  unfold roundEven
  split
  · exact this
  · split
    · omega
    · split <;> omega

theorem micro_near {v : ℚ} (hv : 0 ≤ v) : |(micro v : ℚ) - v * 1000000| ≤ 1 / 2 := by
  have h := roundEven_near (v * 1000000)
  have h0 := roundEven_nonneg (x := v * 1000000) (by positivity)
  unfold micro
  have : (((roundEven (v * 1000000)).toNat : Int) : ℚ) = (roundEven (v * 1000000) : ℚ) := by
    rw [Int.toNat_of_nonneg h0]
  rw [← this] at h
  exact_mod_cast h

theorem micro_within {v w : ℚ} (hv : 0 ≤ v) (hw : 0 ≤ w) (h : micro v = micro w) :
    |v - w| ≤ 1 / 1000000 := by
  have h1 := micro_near hv
  have h2 := micro_near hw
  rw [h] at h1
  rw [abs_le] at *
  constructor <;> linarith

/-! ### The parts of a name -/

theorem value_within {o o' : Option ℚ} (ho : ∀ v, o = some v → 0 ≤ v)
    (ho' : ∀ v, o' = some v → 0 ≤ v) (hsome : o.isSome = o'.isSome)
    (h : ∀ v w, o = some v → o' = some w → delZeros v = delZeros w) : WithinMillionth o o' := by
  cases o with
  | none => cases o' with
    | none => trivial
    | some => simp at hsome
  | some v => cases o' with
    | none => simp at hsome
    | some w =>
      exact micro_within (ho v rfl) (ho' w rfl)
        (delZeros_inj (ho v rfl) (ho' w rfl) (h v w rfl rfl))

theorem dash_delZeros {v : ℚ} (hv : 0 ≤ v) : '-' ∉ delZeros v := fun h =>
  absurd (delZeros_chars hv _ h) (by decide)

theorem dash_showNat (n : Nat) : '-' ∉ showNat n := fun h =>
  absurd (showNat_digits n _ h) (by decide)

theorem temperature_parts {t t' : Option ℚ} (ht : ∀ v, t = some v → 0 ≤ v)
    (ht' : ∀ v, t' = some v → 0 ≤ v) (h : temperaturePart t = temperaturePart t') :
    WithinMillionth t t' := by
  apply value_within ht ht'
  · cases t <;> cases t' <;> simp [temperaturePart] at h ⊢
  · rintro v w rfl rfl
    simpa [temperaturePart] using h

/-- Either empty or starting with the separator. -/
def DashOrEnd (r : List Char) : Prop := r = [] ∨ r.head? = some '-'

theorem dash_temperature (t : Option ℚ) : DashOrEnd (temperaturePart t) := by
  cases t <;> simp [temperaturePart, DashOrEnd]

theorem dash_append {a b : List Char} (ha : DashOrEnd a) (hb : DashOrEnd b) :
    DashOrEnd (a ++ b) := by
  rcases ha with rfl | ha
  · simpa using hb
  · right
    cases a with
    | nil => simp at ha
    | cons x a => simpa using ha

theorem dash_sigma (s c : Option ℚ) : DashOrEnd (sigmaPart s c) := by
  cases s <;> simp [sigmaPart, DashOrEnd]

theorem dash_band (b : Option (List Nat)) : DashOrEnd (bandPart b) := by
  cases b <;> simp [bandPart, DashOrEnd]

/-- The two parts from the sigma on. -/
theorem sigma_parts {s c t s' c' t' : Option ℚ} (hs : ∀ v, s = some v → 0 ≤ v)
    (hs' : ∀ v, s' = some v → 0 ≤ v) (hc : ∀ v, c = some v → 0 ≤ v)
    (hc' : ∀ v, c' = some v → 0 ≤ v)
    (h : sigmaPart s c ++ temperaturePart t = sigmaPart s' c' ++ temperaturePart t') :
    WithinMillionth s s' ∧ (s.isSome → WithinMillionth c c') ∧
      temperaturePart t = temperaturePart t' := by
  cases s with
  | none =>
    cases s' with
    | none => exact ⟨trivial, by simp, by simpa [sigmaPart] using h⟩
    | some w => cases t <;> simp [sigmaPart, temperaturePart] at h
  | some v =>
    cases s' with
    | none => cases t' <;> simp [sigmaPart, temperaturePart] at h
    | some w =>
      simp only [sigmaPart, List.cons_append, List.append_assoc, List.cons.injEq, true_and] at h
      have hd : ∀ (o : Option ℚ) (t : Option ℚ), DashOrEnd
          ((match o with
            | none => []
            | some w => '-' :: 's' :: 'd' :: delZeros w) ++ temperaturePart t) := by
        intro o t
        apply dash_append _ (dash_temperature t)
        cases o <;> simp [DashOrEnd]
      obtain ⟨h1, h2⟩ := peel h (dash_delZeros (hs v rfl)) (dash_delZeros (hs' w rfl))
        (hd c t) (hd c' t')
      have hw : |v - w| ≤ 1 / 1000000 :=
        micro_within (hs v rfl) (hs' w rfl) (delZeros_inj (hs v rfl) (hs' w rfl) h1)
      refine ⟨hw, fun _ => ?_, ?_⟩
      · cases c with
        | none => cases c' with
          | none => trivial
          | some x => cases t <;> simp [temperaturePart] at h2
        | some x => cases c' with
          | none => cases t' <;> simp [temperaturePart] at h2
          | some y =>
            simp only [List.cons_append, List.cons.injEq, true_and] at h2
            obtain ⟨h3, -⟩ := peel h2 (dash_delZeros (hc x rfl)) (dash_delZeros (hc' y rfl))
              (dash_temperature t) (dash_temperature t')
            exact micro_within (hc x rfl) (hc' y rfl) (delZeros_inj (hc x rfl) (hc' y rfl) h3)
      · cases c with
        | none => cases c' with
          | none => simpa using h2
          | some x => cases t <;> simp [temperaturePart] at h2
        | some x => cases c' with
          | none => cases t' <;> simp [temperaturePart] at h2
          | some y =>
            simp only [List.cons_append, List.cons.injEq, true_and] at h2
            exact (peel h2 (dash_delZeros (hc x rfl)) (dash_delZeros (hc' y rfl))
              (dash_temperature t) (dash_temperature t')).2

/-- The text of a list of bands. -/
def bandText (l : List Nat) : List Char := l.flatMap (fun bi => 'b' :: showNat (bi + 1))

theorem bandText_inj {l l' : List Nat} (h : bandText l = bandText l') : l = l' := by
  have hb : ∀ n, 'b' ∉ showNat n := fun n hc => absurd (showNat_digits n _ hc) (by decide)
  have hd : ∀ l, bandText l = [] ∨ (bandText l).head? = some 'b' := by
    intro l; cases l <;> simp [bandText]
  induction l generalizing l' with
  | nil => cases l' with
    | nil => rfl
    | cons => simp [bandText] at h
  | cons x l ih => cases l' with
    | nil => simp [bandText] at h
    | cons y l' =>
      have h' : showNat (x + 1) ++ bandText l = showNat (y + 1) ++ bandText l' := by
        simpa [bandText] using h
      obtain ⟨h1, h2⟩ := peel h' (hb _) (hb _) (hd l) (hd l')
      have := showNat_inj h1
      rw [ih h2, show x = y by omega]

theorem dash_bandText (l : List Nat) : '-' ∉ bandText l := by
  intro h
  obtain ⟨x, -, hx⟩ := List.mem_flatMap.1 h
  rcases List.mem_cons.1 hx with hx | hx
  · exact absurd hx (by decide)
  · exact dash_showNat _ hx

theorem band_parts {b b' : Option (List Nat)} {s c t s' c' t' : Option ℚ}
    (h : bandPart b ++ (sigmaPart s c ++ temperaturePart t) =
      bandPart b' ++ (sigmaPart s' c' ++ temperaturePart t')) :
    b = b' ∧ sigmaPart s c ++ temperaturePart t = sigmaPart s' c' ++ temperaturePart t' := by
  have hd : ∀ s c t, DashOrEnd (sigmaPart s c ++ temperaturePart t) := fun s c t =>
    dash_append (dash_sigma s c) (dash_temperature t)
  have key : ∀ (l : List Nat) (s c t s' c' t' : Option ℚ),
      '-' :: bandText l ++ (sigmaPart s c ++ temperaturePart t) ≠
        sigmaPart s' c' ++ temperaturePart t' := by
    intro l s c t s' c' t' h
    -- after the first separator comes `b`, another separator or the end
    have h2 : (bandText l ++ (sigmaPart s c ++ temperaturePart t)).head? = none ∨
        (bandText l ++ (sigmaPart s c ++ temperaturePart t)).head? = some 'b' ∨
        (bandText l ++ (sigmaPart s c ++ temperaturePart t)).head? = some '-' := by
      cases l with
      | nil =>
        rcases hd s c t with h | h
        · left; simp [bandText, h]
        · right; right; simpa [bandText] using h
      | cons => right; left; simp [bandText]
    have h3 : (sigmaPart s' c' ++ temperaturePart t') = [] ∨
        (∃ r, sigmaPart s' c' ++ temperaturePart t' = '-' :: 's' :: r) ∨
        (∃ r, sigmaPart s' c' ++ temperaturePart t' = '-' :: 't' :: r) := by
      cases s' with
      | none => cases t' with
        | none => left; rfl
        | some => right; right; exact ⟨_, rfl⟩
      | some => right; left; exact ⟨_, rfl⟩
    rcases h3 with h3 | ⟨r, h3⟩ | ⟨r, h3⟩
    · rw [h3] at h; simp at h
    · rw [h3] at h
      simp only [List.cons_append, List.cons.injEq, true_and] at h
      rw [h] at h2; simp at h2
    · rw [h3] at h
      simp only [List.cons_append, List.cons.injEq, true_and] at h
      rw [h] at h2; simp at h2
  cases b with
  | none => cases b' with
    | none => exact ⟨rfl, by simpa [bandPart] using h⟩
    | some l' => exact absurd (by simpa [bandPart, bandText] using h.symm) (key l' s' c' t' s c t)
  | some l => cases b' with
    | none => exact absurd (by simpa [bandPart, bandText] using h) (key l s c t s' c' t')
    | some l' =>
      have h' : bandText l ++ (sigmaPart s c ++ temperaturePart t) =
          bandText l' ++ (sigmaPart s' c' ++ temperaturePart t') := by
        simpa [bandPart, bandText] using h
      obtain ⟨h1, h2⟩ := peel h' (dash_bandText l) (dash_bandText l') (hd s c t) (hd s' c' t')
      exact ⟨by rw [bandText_inj h1], h2⟩

theorem grid_parts {g g' : Option Nat} {b b' : Option (List Nat)} {s c t s' c' t' : Option ℚ}
    (h : gridPart g ++ (bandPart b ++ (sigmaPart s c ++ temperaturePart t)) =
      gridPart g' ++ (bandPart b' ++ (sigmaPart s' c' ++ temperaturePart t'))) :
    g = g' ∧ bandPart b ++ (sigmaPart s c ++ temperaturePart t) =
      bandPart b' ++ (sigmaPart s' c' ++ temperaturePart t') := by
  have hd : ∀ b s c t, DashOrEnd (bandPart b ++ (sigmaPart s c ++ temperaturePart t)) :=
    fun b s c t => dash_append (dash_band b) (dash_append (dash_sigma s c) (dash_temperature t))
  have key : ∀ (r : List Char) (b : Option (List Nat)) (s c t : Option ℚ),
      bandPart b ++ (sigmaPart s c ++ temperaturePart t) ≠ '-' :: 'g' :: r := by
    intro r b s c t h
    cases b with
    | none =>
      cases s with
      | none => cases t <;> simp [bandPart, sigmaPart, temperaturePart] at h
      | some => simp [bandPart, sigmaPart] at h
    | some l =>
      cases l with
      | nil =>
        cases s with
        | none => cases t <;> simp [bandPart, sigmaPart, temperaturePart] at h
        | some => simp [bandPart, sigmaPart] at h
      | cons => simp [bandPart] at h
  cases g with
  | none => cases g' with
    | none => exact ⟨rfl, by simpa [gridPart] using h⟩
    | some n => exact absurd (by simpa [gridPart] using h) (key _ b s c t)
  | some n => cases g' with
    | none => exact absurd (by simpa [gridPart] using h.symm) (key _ b' s' c' t')
    | some n' =>
      have h' : showNat n ++ (bandPart b ++ (sigmaPart s c ++ temperaturePart t)) =
          showNat n' ++ (bandPart b' ++ (sigmaPart s' c' ++ temperaturePart t')) := by
        simpa [gridPart] using h
      obtain ⟨h1, h2⟩ := peel h' (dash_showNat n) (dash_showNat n') (hd b s c t) (hd b' s' c' t')
      exact ⟨by rw [showNat_inj h1], h2⟩

/-- Two calculations that write a file of the same name, with the same user's string and meshes
whose numbers have the same numbers of digits, agree in mesh, grid point and band indices, and in
sigma, cutoff (if there is a sigma) and temperature up to a millionth.  In other words, settings
that differ otherwise write to different files.

Full claim: any two settings that differ give different names.  Missing: meshes of different digit
counts (`C47_mesh_collision`), values closer than a millionth (`C47_sigma_collision`), a cutoff
without a sigma (`C47_cutoff_ignored`), and different user's strings. -/
theorem C47_distinct_partial (kind : List Char) (p q : Setting) (hp : NonNegative p)
    (hq : NonNegative q) (hname : p.name = q.name) (hmesh : SameWidths p.mesh q.mesh)
    (h : outputName kind p = outputName kind q) :
    p.mesh = q.mesh ∧ p.gridPoint = q.gridPoint ∧ p.bands = q.bands ∧
      WithinMillionth p.sigma q.sigma ∧ (p.sigma.isSome → WithinMillionth p.cutoff q.cutoff) ∧
      WithinMillionth p.temperature q.temperature := by
  unfold outputName at h
  have h := List.append_cancel_left (List.append_cancel_right h |>.trans rfl |> fun x => by
    simpa using x : kind ++ filenameSuffix p = kind ++ filenameSuffix q)
  unfold filenameSuffix at h
  rw [hname] at h
  simp only [List.cons_append, List.cons.injEq, true_and, List.append_assoc] at h
  simp only [← List.append_assoc] at h
  have h := List.append_cancel_right h
  simp only [List.append_assoc] at h
  obtain ⟨h1, h⟩ := List.append_inj h (showNat_length hmesh.1)
  obtain ⟨h2, h⟩ := List.append_inj h (showNat_length hmesh.2.1)
  obtain ⟨h3, h⟩ := List.append_inj h (showNat_length hmesh.2.2)
  obtain ⟨h4, h⟩ := grid_parts h
  obtain ⟨h5, h⟩ := band_parts h
  obtain ⟨h6, h7, h⟩ := sigma_parts hp.1 hq.1 hp.2.1 hq.2.1 h
  refine ⟨?_, h4, h5, h6, h7, temperature_parts hp.2.2 hq.2.2 h⟩
  exact Prod.ext (showNat_inj h1) (Prod.ext (showNat_inj h2) (showNat_inj h3))

/-- Two settings with a common mesh and no user's string, differing in the grid point: different
names. -/
example : outputName "kappa".toList { mesh := (11, 11, 11), gridPoint := some 1 } ≠
    outputName "kappa".toList { mesh := (11, 11, 11), gridPoint := some 11 } := by
  intro h
  have := (C47_distinct_partial "kappa".toList { mesh := (11, 11, 11), gridPoint := some 1 }
    { mesh := (11, 11, 11), gridPoint := some 11 } (hname := rfl) (hmesh := ⟨rfl, rfl, rfl⟩) (h := h)
    (hp := by simp [NonNegative]) (hq := by simp [NonNegative])).2.1
  simp at this

/-- Sigmas 0.1 and 0.05 at 300 K: different names. -/
example : outputName "kappa".toList
      { mesh := (11, 11, 11), sigma := some (1 / 10), temperature := some 300 } ≠
    outputName "kappa".toList
      { mesh := (11, 11, 11), sigma := some (1 / 20), temperature := some 300 } := by
  intro h
  have := (C47_distinct_partial "kappa".toList
    { mesh := (11, 11, 11), sigma := some (1 / 10), temperature := some 300 }
    { mesh := (11, 11, 11), sigma := some (1 / 20), temperature := some 300 }
    (hname := rfl) (hmesh := ⟨rfl, rfl, rfl⟩) (h := h)
    (hp := by simp [NonNegative]) (hq := by simp [NonNegative])).2.2.2.1
  simp only [WithinMillionth] at this
  norm_num [abs_le] at this

/-- Different meshes whose digits run together write to the same file. -/
theorem C47_mesh_collision (kind : List Char) (r : Setting) :
    outputName kind { r with mesh := (1, 11, 1) } = outputName kind { r with mesh := (11, 1, 1) } := by
  have : showNat 1 ++ showNat 11 ++ showNat 1 = showNat 11 ++ showNat 1 ++ showNat 1 := by
    simp [showNat]
  unfold outputName filenameSuffix
  simp only [this]

/-- Two values that round to the same six decimals give the same name. -/
theorem C47_sigma_collision (kind : List Char) (r : Setting) :
    outputName kind { r with sigma := some (1 / 10000000) } =
      outputName kind { r with sigma := some (1 / 5000000) } := by
  have : delZeros (1 / 10000000) = delZeros (1 / 5000000) := by
    have h : micro (1 / 10000000) = micro (1 / 5000000) := by
      have h1 : ⌊(1 / 10000000 * 1000000 : ℚ)⌋ = 0 := by rw [Int.floor_eq_iff]; norm_num
      have h2 : ⌊(1 / 5000000 * 1000000 : ℚ)⌋ = 0 := by rw [Int.floor_eq_iff]; norm_num
      unfold micro roundEven
      rw [h1, h2]; norm_num
    rw [delZeros_eq (by norm_num), delZeros_eq (by norm_num), h]
  unfold outputName filenameSuffix sigmaPart
  simp only [this]

/-- Without a sigma the cutoff does not enter the name. -/
theorem C47_cutoff_ignored (kind : List Char) (r : Setting) (c : Option ℚ) (h : r.sigma = none) :
    outputName kind { r with cutoff := c } = outputName kind r := by
  unfold outputName filenameSuffix sigmaPart
  simp only [h]

/-! ## C54 -/

/-- With temperatures, exactly one file is written, that of the first temperature, however many
there are. -/
theorem C54_first_only {V : Type} (a : JdosArgs) (v : V) (vs : List V) (t : ℚ) (ts : List ℚ) :
    writeJointDos a (v :: vs) (some (t :: ts)) = some [(jdosName a (some t), v)] := rfl

/-- What is wanted: one file per temperature, holding the spectrum of this temperature. -/
def AllWritten {V : Type} (a : JdosArgs) (jdos : List V) (ts : List ℚ)
    (files : List (List Char × V)) : Prop :=
  ∀ (i : Nat) (v : V) (t : ℚ), jdos[i]? = some v → ts[i]? = some t →
    (jdosName a (some t), v) ∈ files

/-- The claim holds for no temperature and for a single temperature.

Full claim: it holds for every list of temperatures; refuted by `C54_second_missing`. -/
theorem C54_single_partial {V : Type} (a : JdosArgs) (jdos : List V) (ts : List ℚ)
    (h : ts.length ≤ 1) :
    ∃ files, writeJointDos a jdos (some ts) = some files ∧ AllWritten a jdos ts files := by
  cases ts with
  | nil => exact ⟨[], by simp [writeJointDos], by intro i v t _ h; simp at h⟩
  | cons t ts =>
    have : ts = [] := by simpa using h
    subst this
    cases jdos with
    | nil => exact ⟨[], rfl, by intro i v t h; simp at h⟩
    | cons v vs =>
      refine ⟨_, rfl, ?_⟩
      intro i w s hw hs
      cases i with
      | zero => simp at hw hs; subst hw hs; simp
      | succ i => simp at hs

/-- The file name of the joint DOS determines the temperature up to a millionth. -/
theorem C54_names {a : JdosArgs} {t s : ℚ} (ht : 0 ≤ t) (hs : 0 ≤ s)
    (h : jdosName a (some t) = jdosName a (some s)) : |t - s| ≤ 1 / 1000000 := by
  unfold jdosName at h
  have h := List.append_cancel_right h
  have h := List.append_cancel_right h
  have h := List.append_cancel_right h
  have h := List.append_cancel_left h
  simp only [List.cons.injEq, true_and] at h
  exact micro_within ht hs (delZeros_inj ht hs h)

/-- With two temperatures further apart than a millionth, no file for the second one is ever
written, neither by the writer nor by a whole run at a grid point. -/
theorem C54_second_missing {V : Type} (a : JdosArgs) (v w : V) (before : List V) (t s : ℚ)
    (ht : 0 ≤ t) (hs : 0 ≤ s) (hne : 1 / 1000000 < |t - s|) :
    ∃ files, runJointDos a before [v, w] (some [t, s]) = some files ∧
      files = [(jdosName a (some t), v), (jdosName a (some t), v)] ∧
      ¬ AllWritten a [v, w] [t, s] files := by
  refine ⟨_, rfl, rfl, ?_⟩
  intro h
  have := h 1 w s rfl rfl
  have : (jdosName a (some s), w) ∈ [(jdosName a (some t), v), (jdosName a (some t), v)] := this
  simp only [List.mem_cons, List.not_mem_nil, or_false, Prod.mk.injEq] at this
  have hj : jdosName a (some s) = jdosName a (some t) := by
    rcases this with h | h <;> exact h.1
  have := C54_names hs ht hj
  rw [abs_sub_comm] at this
  linarith

/-- Temperatures 0 and 300 meet the hypotheses. -/
example : ∃ files, runJointDos { gridPoint := 5, mesh := (11, 11, 11) } [0, 0] [7, (8 : Nat)]
      (some [0, 300]) = some files ∧
    files = [(jdosName { gridPoint := 5, mesh := (11, 11, 11) } (some 0), 7),
      (jdosName { gridPoint := 5, mesh := (11, 11, 11) } (some 0), 7)] ∧
    ¬ AllWritten { gridPoint := 5, mesh := (11, 11, 11) } [7, 8] [0, 300] files :=
  C54_second_missing _ 7 8 [0, 0] 0 300 (by norm_num) (by norm_num) (by norm_num)

/-! ## C57 -/

/-- The elements the setter is documented to take: numbers and `None`. -/
def pyOf : Option (ℚ ⊕ Int) → PyVal
  | none => .none
  | some (.inl v) => .float v
  | some (.inr n) => .int n

/-- The entry that should be stored. -/
def wanted : Option (ℚ ⊕ Int) → Option ℚ
  | none => none
  | some (.inl v) => some v
  | some (.inr n) => some (n : ℚ)

/-- Every list of floats, integers and `None` is stored in order, one entry per element. -/
theorem C57_list (l : List (Option (ℚ ⊕ Int))) :
    setSigmas (.list (l.map pyOf)) = some (l.map wanted) := by
  unfold setSigmas
  simp only [Option.some.injEq]
  induction l with
  | nil => rfl
  | cons x l ih =>
    rw [List.map_cons, List.flatMap_cons, ih, List.map_cons]
    rcases x with _ | v | n <;> rfl

/-- A single value and the one-element list are equivalent. -/
theorem C57_scalar (x : Option (ℚ ⊕ Int)) :
    setSigmas (pyOf x) = setSigmas (.list [pyOf x]) := by
  rcases x with _ | v | n <;> rfl

/-- Elements of any other type are dropped without an error, so that fewer widths are used than
were given. -/
theorem C57_others_dropped (l : List (Option (ℚ ⊕ Int))) (v : ℚ) (r : List (Option (ℚ ⊕ Int))) :
    setSigmas (.list (l.map pyOf ++ .other v :: r.map pyOf)) = some (l.map wanted ++ r.map wanted) := by
  have h1 := C57_list l
  have h2 := C57_list r
  unfold setSigmas at h1 h2 ⊢
  simp only [Option.some.injEq] at h1 h2 ⊢
  rw [List.flatMap_append, List.flatMap_cons, h1, h2]
  rfl

example : setSigmas (.list [.none, .float (1 / 10), .int 1]) = some [none, some (1 / 10), some 1] :=
  C57_list [none, some (.inl (1 / 10)), some (.inr 1)]

end Phono3py.Props
