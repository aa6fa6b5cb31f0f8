import Verif.Lemmas.Sorted
import Verif.Lemmas.FormatInterval

/-!
# The texts of intervals and timestamps determine what they stand for
-/

namespace Pg
open Spec

/-- Blank and signs. -/
def LeadB (b : Nat) : Prop := b = 32 ∨ b = 43 ∨ b = 45

/-- `s` does not go on with a digit. -/
def Nondigit (s : Bytes) : Prop := ∀ b, s.head? = some b → ¬ (48 ≤ b ∧ b ≤ 57)

theorem Nondigit.nil : Nondigit [] := fun b h => by cases h
theorem Nondigit.cons {c : Nat} {r : Bytes} (h : ¬ (48 ≤ c ∧ c ≤ 57)) : Nondigit (c :: r) := fun b e => by cases e; exact h
theorem Nondigit.append {a b : Bytes} (ha : Nondigit a) (hb : Nondigit b) : Nondigit (a ++ b) := by
  cases a with
  | nil => exact hb
  | cons x a => exact fun c e => ha c e

theorem digits_split {a a' r r' : Bytes} (ha : Digits a) (ha' : Digits a') (hr : Nondigit r) (hr' : Nondigit r')
    (h : a ++ r = a' ++ r') : a = a' ∧ r = r' := by
  induction a generalizing a' with
  | nil =>
    cases a' with
    | nil => exact ⟨rfl, h⟩
    | cons x a' =>
      simp only [List.nil_append] at h
      exact absurd (ha' x (by simp)) (hr x (by rw [h]; rfl))
  | cons x a ih =>
    cases a' with
    | nil =>
      simp only [List.nil_append] at h
      exact absurd (ha x (by simp)) (hr' x (by rw [← h]; rfl))
    | cons y a' =>
      simp only [List.cons_append, List.cons.injEq] at h
      obtain ⟨rfl, h⟩ := h
      obtain ⟨rfl, h'⟩ := ih (fun d hd => ha d (by simp [hd])) (fun d hd => ha' d (by simp [hd])) h
      exact ⟨rfl, h'⟩

/-- Signs and digits can be told apart from what follows. -/
theorem lead_split {sg sg' a a' r r' : Bytes} (hs : ∀ b ∈ sg, LeadB b) (hs' : ∀ b ∈ sg', LeadB b) (ha : Digits a) (ha' : Digits a')
    (na : a ≠ []) (na' : a' ≠ []) (hr : Nondigit r) (hr' : Nondigit r') (h : sg ++ (a ++ r) = sg' ++ (a' ++ r')) :
    sg = sg' ∧ a = a' ∧ r = r' := by
  have no : ∀ b, LeadB b → ¬ (48 ≤ b ∧ b ≤ 57) := fun b hb => by unfold LeadB at hb; omega
  induction sg generalizing sg' with
  | nil =>
    cases sg' with
    | nil => exact ⟨rfl, digits_split ha ha' hr hr' h⟩
    | cons x l =>
      obtain ⟨y, t, rfl⟩ := List.exists_cons_of_ne_nil na
      simp only [List.nil_append, List.cons_append, List.cons.injEq] at h
      exact absurd (ha y (by simp)) (h.1 ▸ no x (hs' x (by simp)))
  | cons x l ih =>
    cases sg' with
    | nil =>
      obtain ⟨y, t, rfl⟩ := List.exists_cons_of_ne_nil na'
      simp only [List.nil_append, List.cons_append, List.cons.injEq] at h
      exact absurd (ha' y (by simp)) (h.1 ▸ no x (hs x (by simp)))
    | cons y l' =>
      simp only [List.cons_append, List.cons.injEq] at h
      obtain ⟨rfl, h⟩ := h
      obtain ⟨rfl, h'⟩ := ih (fun b hb => hs b (by simp [hb])) (fun b hb => hs' b (by simp [hb])) h
      exact ⟨rfl, h'⟩

/-- The text starts with a number followed by `k`. -/
def Starts (k s : Bytes) : Prop := ∃ sg a r, (∀ b ∈ sg, LeadB b) ∧ Digits a ∧ a ≠ [] ∧ s = sg ++ (a ++ (k ++ r))

/-- Neither text is the beginning of the other. -/
def Unlike (k k' : Bytes) : Prop := ∀ r r', k ++ r ≠ k' ++ r'

theorem not_starts {k k' sg a r : Bytes} (hs : ∀ b ∈ sg, LeadB b) (ha : Digits a) (na : a ≠ []) (hk : Nondigit k) (nk : k ≠ [])
    (hk' : Nondigit k') (nk' : k' ≠ []) (h : Unlike k k') : ¬ Starts k (sg ++ (a ++ (k' ++ r))) := by
  rintro ⟨sg', a', r', h1, h2, h3, e⟩
  have n1 : Nondigit (k ++ r') := by obtain ⟨x, l, rfl⟩ := List.exists_cons_of_ne_nil nk; exact fun b e => hk b e
  have n2 : Nondigit (k' ++ r) := by obtain ⟨x, l, rfl⟩ := List.exists_cons_of_ne_nil nk'; exact fun b e => hk' b e
  exact h r' r (lead_split hs h1 ha h2 na h3 n2 n1 e).2.2.symm

theorem not_starts_end {k sg a : Bytes} (hs : ∀ b ∈ sg, LeadB b) (ha : Digits a) (na : a ≠ []) (hk : Nondigit k) (nk : k ≠ []) :
    ¬ Starts k (sg ++ a) := by
  rintro ⟨sg', a', r', h1, h2, h3, e⟩
  have n1 : Nondigit (k ++ r') := by obtain ⟨x, l, rfl⟩ := List.exists_cons_of_ne_nil nk; exact fun b e => hk b e
  rw [← List.append_nil a] at e
  have := (lead_split hs h1 ha h2 na h3 Nondigit.nil n1 e).2.2
  obtain ⟨x, l, rfl⟩ := List.exists_cons_of_ne_nil nk
  cases this

theorem not_starts_byte {k : Bytes} {c : Nat} {r : Bytes} (h : ¬ LeadB c) (h' : ¬ (48 ≤ c ∧ c ≤ 57)) : ¬ Starts k (c :: r) := by
  rintro ⟨sg, a, r', h1, h2, h3, e⟩
  cases sg with
  | nil =>
    obtain ⟨x, l, rfl⟩ := List.exists_cons_of_ne_nil h3
    simp only [List.nil_append, List.cons_append, List.cons.injEq] at e
    exact h' (e.1 ▸ h2 x (by simp))
  | cons x l =>
    simp only [List.cons_append, List.cons.injEq] at e
    exact h (e.1 ▸ h1 x (by simp))

theorem not_starts_space {k : Bytes} {c : Nat} {r : Bytes} (h : ¬ LeadB c) (h' : ¬ (48 ≤ c ∧ c ≤ 57)) : ¬ Starts k (32 :: c :: r) := by
  rintro ⟨sg, a, r', h1, h2, h3, e⟩
  cases sg with
  | nil =>
    obtain ⟨x, l, rfl⟩ := List.exists_cons_of_ne_nil h3
    simp only [List.nil_append, List.cons_append, List.cons.injEq] at e
    have := h2 x (by simp)
    omega
  | cons x l =>
    simp only [List.cons_append, List.cons.injEq] at e
    exact not_starts_byte (k := k) h h' ⟨l, a, r', fun b hb => h1 b (by simp [hb]), h2, h3, e.2⟩

theorem not_starts_nil (k : Bytes) : ¬ Starts k [] := by
  rintro ⟨sg, a, r', h1, h2, h3, e⟩
  have := congrArg List.length e
  have := List.length_pos_of_ne_nil h3
  simp only [List.length_append, List.length_nil] at *
  omega

/-- An optional number with its unit can be told apart from what follows. -/
theorem opt_split {z z' : Prop} [Decidable z] [Decidable z'] {k sg sg' a a' q q' R R' : Bytes} (hk : Nondigit k) (nk : k ≠ [])
    (hs : ∀ b ∈ sg, LeadB b) (hs' : ∀ b ∈ sg', LeadB b) (ha : Digits a) (ha' : Digits a')
    (na : a ≠ []) (na' : a' ≠ []) (hR : ¬ Starts k R) (hR' : ¬ Starts k R')
    (h : (if z then [] else sg ++ (a ++ (k ++ q))) ++ R = (if z' then [] else sg' ++ (a' ++ (k ++ q'))) ++ R') :
    (z ↔ z') ∧ (z → R = R') ∧ (¬ z → sg = sg' ∧ a = a' ∧ q ++ R = q' ++ R') := by
  have nd : ∀ r, Nondigit (k ++ r) := fun r => by obtain ⟨x, l, rfl⟩ := List.exists_cons_of_ne_nil nk; exact fun b e => hk b e
  by_cases h1 : z <;> by_cases h2 : z'
  · rw [if_pos h1, if_pos h2] at h
    exact ⟨⟨fun _ => h2, fun _ => h1⟩, fun _ => h, fun hn => absurd h1 hn⟩
  · rw [if_pos h1, if_neg h2] at h
    exact absurd ⟨sg', a', q' ++ R', hs', ha', na', by rw [← List.nil_append R, h]; simp⟩ hR
  · rw [if_neg h1, if_pos h2] at h
    exact absurd ⟨sg, a, q ++ R, hs, ha, na, by rw [← List.nil_append R', ← h]; simp⟩ hR'
  · rw [if_neg h1, if_neg h2] at h
    simp only [List.append_assoc] at h
    obtain ⟨e1, e2, e3⟩ := lead_split hs hs' ha ha' na na' (nd _) (nd _) h
    exact ⟨⟨fun h => absurd h h1, fun h => absurd h h2⟩, fun h => absurd h h1, fun _ => ⟨e1, e2, List.append_cancel_left e3⟩⟩

theorem natText_inj {a b : Nat} (h : natText a = natText b) : a = b := by
  have := congrArg value h
  rwa [natText_value, natText_value] at this

theorem fracText_inj {m n : Nat} (hm : m < 10 ^ 6) (hn : n < 10 ^ 6) (h : fracText m = fracText n) : m = n := by
  rcases Nat.lt_trichotomy m n with h' | h' | h'
  · have := fracText_lt hm hn h'; rw [h] at this; exact absurd this (List.lt_irrefl _)
  · exact h'
  · have := fracText_lt hn hm h'; rw [h] at this; exact absurd this (List.lt_irrefl _)

/-- The fraction of a second, followed by something that does not go on with a digit or a point. -/
theorem frac_split {m n : Nat} {r r' : Bytes} (hm : m < 10 ^ 6) (hn : n < 10 ^ 6) (hr : Nondigit r) (hr' : Nondigit r')
    (pr : r.head? ≠ some 46) (pr' : r'.head? ≠ some 46) (h : fracText m ++ r = fracText n ++ r') : m = n ∧ r = r' := by
  have dig : ∀ n, Digits (stripZeros (padText 6 n)) := fun n => strip_digits (padText_digits _ _)
  by_cases h1 : m = 0 <;> by_cases h2 : n = 0
  · subst h1; subst h2; exact ⟨rfl, by simpa [fracText] using h⟩
  · subst h1
    simp only [fracText, if_pos, if_neg h2, List.nil_append, List.cons_append] at h
    exact absurd (by rw [h]; rfl) pr
  · subst h2
    simp only [fracText, if_pos, if_neg h1, List.nil_append, List.cons_append] at h
    exact absurd (by rw [← h]; rfl) pr'
  · have e : ∀ n : Nat, n ≠ 0 → fracText n = 46 :: stripZeros (padText 6 n) := fun n h => by rw [fracText, if_neg h]
    rw [e m h1, e n h2] at h
    simp only [List.cons_append, List.cons.injEq, true_and] at h
    obtain ⟨h3, h4⟩ := digits_split (dig m) (dig n) hr hr' h
    exact ⟨fracText_inj hm hn (by rw [e m h1, e n h2, h3]), h4⟩

theorem frac_nondigit (n : Nat) {r : Bytes} (hr : Nondigit r) : Nondigit (fracText n ++ r) := by
  unfold fracText
  split
  · exact hr
  · exact Nondigit.cons (by omega)

/-! ## Putting the parts together -/

theorem abs_tdiv (a b : Int) : (Int.tdiv a b).natAbs = a.natAbs / b.natAbs := Int.natAbs_tdiv a b
theorem abs_tmod (a b : Int) : (Int.tmod a b).natAbs = a.natAbs % b.natAbs := Int.natAbs_tmod a b

theorem months_of {m m' : Int} (h1 : (ivYear m).natAbs = (ivYear m').natAbs) (h2 : (ivMon m).natAbs = (ivMon m').natAbs) :
    m.natAbs = m'.natAbs := by
  unfold ivYear ivMon at *
  rw [abs_tdiv, abs_tdiv] at h1
  rw [abs_tmod, abs_tmod] at h2
  simp only [show Int.natAbs 12 = 12 from rfl] at h1 h2
  omega

theorem time_of {t t' : Int} (h1 : (ivHour t).natAbs = (ivHour t').natAbs) (h2 : (ivMin t).natAbs = (ivMin t').natAbs)
    (h3 : ivSec t = ivSec t') (h4 : ivMicro t = ivMicro t') : t.natAbs = t'.natAbs := by
  unfold ivHour ivMin ivSec ivMicro at *
  rw [abs_tdiv, abs_tdiv] at h1
  rw [abs_tdiv, abs_tdiv, abs_tmod, abs_tmod] at h2
  simp only [show Int.natAbs 3600000000 = 3600000000 from rfl, show Int.natAbs 60000000 = 60000000 from rfl] at h1 h2
  omega

theorem micro_lt (t : Int) : ivMicro t < 10 ^ 6 := Nat.mod_lt _ (by omega)

theorem same_sign {a b : Int} (h : a.natAbs = b.natAbs) (hs : a < 0 ↔ b < 0) : a = b := by omega

theorem minus_lead (b : Bool) : ∀ x ∈ minus b, LeadB x := by
  cases b <;> simp [minus, LeadB]
theorem sign_lead (b : Bool) : ∀ x ∈ signText b, LeadB x := by
  cases b <;> simp [signText, LeadB]
theorem minus_inj {a b : Bool} (h : minus a = minus b) : a = b := by
  cases a <;> cases b <;> first | rfl | cases h
theorem signText_inj {a b : Bool} (h : signText a = signText b) : a = b := by
  cases a <;> cases b <;> first | rfl | cases h

theorem opt_not_starts {z : Prop} [Decidable z] {k k' sg a q R : Bytes} (hs : ∀ b ∈ sg, LeadB b) (ha : Digits a) (na : a ≠ [])
    (hk : Nondigit k) (nk : k ≠ []) (hk' : Nondigit k') (nk' : k' ≠ []) (h : Unlike k k') (hR : ¬ Starts k R) :
    ¬ Starts k ((if z then [] else sg ++ (a ++ (k' ++ q))) ++ R) := by
  by_cases hz : z
  · rw [if_pos hz]; exact hR
  · rw [if_neg hz]
    simp only [List.append_assoc]
    exact not_starts hs ha na hk nk hk' nk' h

theorem frac_byte (n : Nat) {c : Nat} {r : Bytes} (hc : ¬ (48 ≤ c ∧ c ≤ 57)) : Nondigit (fracText n ++ c :: r) ∧ fracText n ++ c :: r ≠ [] :=
  ⟨frac_nondigit n (Nondigit.cons hc), by simp⟩

theorem frac_apart (n : Nat) {c x : Nat} {k r : Bytes} (h : x ≠ c) (h' : x ≠ 46) : Unlike (x :: k) (fracText n ++ c :: r) := by
  intro r1 r2 e
  unfold fracText at e
  split at e
  · simp only [List.nil_append, List.cons_append, List.cons.injEq] at e
    exact h e.1
  · simp only [List.cons_append, List.cons.injEq] at e
    exact h' e.1

/-! ## ISO 8601 -/

/-- The general form of the text. -/
def isoShape (y mo d : Int) (T : Bool) (h mi : Int) (S : Option (Bool × Nat × Nat)) : Bytes :=
  isoField y 89 ++ (isoField mo 77 ++ (isoField d 68 ++ ((if T then [84] else []) ++ (isoField h 72 ++ (isoField mi 77 ++
    match S with | none => [] | some (n, s, us) => minus n ++ (natText s ++ (fracText us ++ [83])))))))

theorem isoField_eq (v : Int) (u : Nat) : isoField v u = if v = 0 then [] else minus (v < 0) ++ (natText v.natAbs ++ ([u] ++ [])) := by
  unfold isoField intText minus
  by_cases h : v < 0 <;> simp [h]

theorem one_apart {a b : Nat} (h : a ≠ b) : Unlike [a] [b] := by
  intro r r' e
  simp only [List.cons_append, List.cons.injEq] at e
  exact h e.1

theorem isoField_split {v v' : Int} {u : Nat} {R R' : Bytes} (hu : ¬ (48 ≤ u ∧ u ≤ 57)) (hR : ¬ Starts [u] R) (hR' : ¬ Starts [u] R')
    (h : isoField v u ++ R = isoField v' u ++ R') : v = v' ∧ R = R' := by
  rw [isoField_eq, isoField_eq] at h
  obtain ⟨h1, h2, h3⟩ := opt_split (Nondigit.cons hu) (by simp) (minus_lead _) (minus_lead _) (natText_digits _) (natText_digits _)
    (natText_ne _) (natText_ne _) hR hR' h
  by_cases hv : v = 0
  · exact ⟨by rw [hv, h1.1 hv], h2 hv⟩
  · obtain ⟨h4, h5, h6⟩ := h3 hv
    have := minus_inj h4
    simp only [decide_eq_decide] at this
    exact ⟨same_sign (natText_inj h5) this, h6⟩

theorem isoField_not {v : Int} {u x : Nat} {R : Bytes} (hu : ¬ (48 ≤ u ∧ u ≤ 57)) (hx : ¬ (48 ≤ x ∧ x ≤ 57)) (hne : x ≠ u)
    (hR : ¬ Starts [x] R) : ¬ Starts [x] (isoField v u ++ R) := by
  rw [isoField_eq]
  exact opt_not_starts (minus_lead _) (natText_digits _) (natText_ne _) (Nondigit.cons hx) (by simp) (Nondigit.cons hu) (by simp)
    (one_apart hne) hR

theorem isoShape_inj {y mo d y' mo' d' : Int} {T T' : Bool} {h mi h' mi' : Int} {S S' : Option (Bool × Nat × Nat)}
    (hT : T = false → h = 0 ∧ mi = 0 ∧ S = none) (hT' : T' = false → h' = 0 ∧ mi' = 0 ∧ S' = none)
    (hS : ∀ n s us, S = some (n, s, us) → us < 10 ^ 6) (hS' : ∀ n s us, S' = some (n, s, us) → us < 10 ^ 6)
    (e : isoShape y mo d T h mi S = isoShape y' mo' d' T' h' mi' S') : y = y' ∧ mo = mo' ∧ d = d' ∧ h = h' ∧ mi = mi' ∧ S = S' := by
  have tail : ∀ {T : Bool} {h mi : Int} {S : Option (Bool × Nat × Nat)}, (T = false → h = 0 ∧ mi = 0 ∧ S = none) → ∀ k,
      ¬ Starts k ((if T then [84] else []) ++ (isoField h 72 ++ (isoField mi 77 ++
        match S with | none => [] | some (n, s, us) => minus n ++ (natText s ++ (fracText us ++ [83]))))) := by
    intro T h mi S hT k
    cases T with
    | true => exact not_starts_byte (by unfold LeadB; omega) (by omega)
    | false =>
      obtain ⟨rfl, rfl, rfl⟩ := hT rfl
      exact not_starts_nil k
  have sec : ∀ (S : Option (Bool × Nat × Nat)) (x : Nat), x = 72 ∨ x = 77 → ¬ Starts [x]
      (match S with | none => [] | some (n, s, us) => minus n ++ (natText s ++ (fracText us ++ [83]))) := by
    intro S x hx
    cases S with
    | none => exact not_starts_nil _
    | some q =>
      obtain ⟨n, s, us⟩ := q
      have := frac_byte us (c := 83) (r := []) (by omega)
      have k := not_starts (k := [x]) (k' := fracText us ++ [83]) (r := []) (minus_lead n) (natText_digits s) (natText_ne s)
        (Nondigit.cons (by omega)) (by simp) this.1 this.2 (frac_apart us (by omega) (by omega))
      rwa [List.append_nil] at k
  unfold isoShape at e
  obtain ⟨rfl, e1⟩ := isoField_split (by omega) (isoField_not (by omega) (by omega) (by omega) (isoField_not (by omega) (by omega) (by omega) (tail hT _)))
    (isoField_not (by omega) (by omega) (by omega) (isoField_not (by omega) (by omega) (by omega) (tail hT' _))) e
  obtain ⟨rfl, e2⟩ := isoField_split (u := 77) (by omega) (isoField_not (u := 68) (by omega) (by omega) (by omega) (tail hT _))
    (isoField_not (u := 68) (by omega) (by omega) (by omega) (tail hT' _)) e1
  obtain ⟨rfl, e3⟩ := isoField_split (by omega) (tail hT _) (tail hT' _) e2
  refine ⟨rfl, rfl, rfl, ?_⟩
  cases T with
  | false =>
    obtain ⟨rfl, rfl, rfl⟩ := hT rfl
    cases T' with
    | false =>
      obtain ⟨rfl, rfl, rfl⟩ := hT' rfl
      exact ⟨rfl, rfl, rfl⟩
    | true => simp [isoField] at e3
  | true =>
    cases T' with
    | false =>
      obtain ⟨rfl, rfl, rfl⟩ := hT' rfl
      simp [isoField] at e3
    | true =>
      simp only [if_true, List.cons_append, List.nil_append, List.cons.injEq, true_and] at e3
      obtain ⟨rfl, e4⟩ := isoField_split (u := 72) (by omega) (isoField_not (by omega) (by omega) (by omega) (sec S _ (Or.inl rfl)))
        (isoField_not (by omega) (by omega) (by omega) (sec S' _ (Or.inl rfl))) e3
      obtain ⟨rfl, e5⟩ := isoField_split (by omega) (sec S _ (Or.inr rfl)) (sec S' _ (Or.inr rfl)) e4
      refine ⟨rfl, rfl, ?_⟩
      have ne : ∀ (n : Bool) (s us : Nat), minus n ++ (natText s ++ (fracText us ++ [83])) ≠ [] := by intro n s us; simp
      replace e := e5
      cases S with
      | none =>
        cases S' with
        | none => rfl
        | some q => obtain ⟨n, s, us⟩ := q; exact absurd e.symm (ne n s us)
      | some q =>
        obtain ⟨n, s, us⟩ := q
        cases S' with
        | none => exact absurd e (ne n s us)
        | some q' =>
          obtain ⟨n', s', us'⟩ := q'
          dsimp only at e
          obtain ⟨e1, e2, e3⟩ := lead_split (minus_lead _) (minus_lead _) (natText_digits _) (natText_digits _) (natText_ne _) (natText_ne _)
            (frac_byte us (c := 83) (by omega)).1 (frac_byte us' (c := 83) (by omega)).1 e
          have e4 := (frac_split (hS _ _ _ rfl) (hS' _ _ _ rfl) (Nondigit.cons (by omega)) (Nondigit.cons (by omega)) (by simp) (by simp) e3).1
          rw [minus_inj e1, natText_inj e2, e4]

/-- The text of every interval has the general form. -/
theorem iso_shape (m d t : Int) : ∃ y mo d' T h mi S, isoIntervalText m d t = 80 :: isoShape y mo d' T h mi S ∧
    (T = false → h = 0 ∧ mi = 0 ∧ S = none) ∧ (∀ n s us, S = some (n, s, us) → us < 10 ^ 6) ∧
    y = ivYear m ∧ mo = ivMon m ∧ d' = d ∧ h = ivHour t ∧ mi = ivMin t ∧
    (S = if t.natAbs % 60000000 = 0 then (if m = 0 ∧ d = 0 ∧ t = 0 then some (false, 0, 0) else none)
      else some (decide (t < 0), ivSec t, ivMicro t)) := by
  by_cases h : m = 0 ∧ d = 0 ∧ t = 0
  · refine ⟨0, 0, 0, true, 0, 0, some (false, 0, 0), ?_, by simp, ?_, ?_⟩
    · rw [isoIntervalText, if_pos h]
      simp [isoShape, isoField, minus, fracText, natText]
    · intro n s us e; cases e; norm_num
    · obtain ⟨rfl, rfl, rfl⟩ := h
      decide
  · refine ⟨ivYear m, ivMon m, d, decide (t ≠ 0), ivHour t, ivMin t, if t.natAbs % 60000000 = 0 then none else some (decide (t < 0), ivSec t, ivMicro t),
      ?_, ?_, ?_, rfl, rfl, rfl, rfl, rfl, by rw [if_neg h]⟩
    · rw [isoIntervalText, if_neg h]
      unfold isoShape isoSecText
      by_cases ht : t = 0
      · subst ht; simp [isoField, ivHour, ivMin]
      · by_cases h6 : t.natAbs % 60000000 = 0 <;> simp [h6, ht, secText]
    · intro ht
      have ht : t = 0 := by simpa using ht
      subst ht
      decide
    · intro n s us e
      split at e
      · cases e
      · cases e; exact micro_lt t

theorem isoIntervalText_inj {m d t m' d' t' : Int} (e : isoIntervalText m d t = isoIntervalText m' d' t') : m = m' ∧ d = d' ∧ t = t' := by
  obtain ⟨y, mo, dd, T, h, mi, S, h1, h2, h3, rfl, rfl, rfl, rfl, rfl, hS⟩ := iso_shape m d t
  obtain ⟨y', mo', dd', T', h', mi', S', h1', h2', h3', rfl, rfl, rfl, rfl, rfl, hS'⟩ := iso_shape m' d' t'
  rw [h1, h1'] at e
  simp only [List.cons.injEq, true_and] at e
  obtain ⟨e1, e2, e3, e4, e5, e6⟩ := isoShape_inj h2 h2' h3 h3' e
  have em : m = m' := by
    have a := Int.mul_tdiv_add_tmod m 12
    have b := Int.mul_tdiv_add_tmod m' 12
    unfold ivYear at e1
    unfold ivMon at e2
    omega
  refine ⟨em, e3, ?_⟩
  rw [hS, hS'] at e6
  have key : ∀ t : Int, t.natAbs % 60000000 = 0 → ivSec t = 0 ∧ ivMicro t = 0 := by
    intro t h
    unfold ivSec ivMicro
    omega
  have key2 : ∀ t : Int, t.natAbs % 60000000 ≠ 0 → ivSec t ≠ 0 ∨ ivMicro t ≠ 0 := by
    intro t h
    unfold ivSec ivMicro
    omega
  have full : ∀ t : Int, 3600000000 * ivHour t + 60000000 * ivMin t + Int.tmod t 60000000 = t := by
    intro t
    unfold ivHour ivMin
    have a := Int.mul_tdiv_add_tmod t 3600000000
    have b := Int.mul_tdiv_add_tmod (Int.tmod t 3600000000) 60000000
    have c : Int.tmod (Int.tmod t 3600000000) 60000000 = Int.tmod t 60000000 := Int.tmod_tmod_of_dvd _ (by decide)
    omega
  have sec : ∀ t : Int, t.natAbs % 60000000 = 0 → Int.tmod t 60000000 = 0 := by
    intro t h
    have := abs_tmod t 60000000
    simp only [show Int.natAbs 60000000 = 60000000 from rfl] at this
    omega
  by_cases c1 : t.natAbs % 60000000 = 0 <;> by_cases c2 : t'.natAbs % 60000000 = 0
  · have a := full t; have b := full t'
    rw [sec t c1] at a; rw [sec t' c2] at b
    rw [e4, e5] at a
    omega
  · rw [if_pos c1, if_neg c2] at e6
    split at e6
    · simp only [Option.some.injEq, Prod.mk.injEq] at e6
      rcases key2 t' c2 with h | h
      · exact absurd e6.2.1.symm h
      · exact absurd e6.2.2.symm h
    · cases e6
  · rw [if_neg c1, if_pos c2] at e6
    split at e6
    · simp only [Option.some.injEq, Prod.mk.injEq] at e6
      rcases key2 t c1 with h | h
      · exact absurd e6.2.1 h
      · exact absurd e6.2.2 h
    · cases e6
  · rw [if_neg c1, if_neg c2] at e6
    simp only [Option.some.injEq, Prod.mk.injEq, decide_eq_decide] at e6
    exact same_sign (time_of (by rw [e4]) (by rw [e5]) e6.2.1 e6.2.2) e6.1

/-! ## Clock times -/

theorem secText_split {s s' us us' : Nat} (hu : us < 10 ^ 6) (hu' : us' < 10 ^ 6) {r r' : Bytes} (hr : Nondigit r) (hr' : Nondigit r')
    (pr : r.head? ≠ some 46) (pr' : r'.head? ≠ some 46) (h : secText true s us ++ r = secText true s' us' ++ r') :
    s = s' ∧ us = us' ∧ r = r' := by
  simp only [secText, if_true, List.append_assoc] at h
  obtain ⟨h1, h2⟩ := digits_split (padText_digits _ _) (padText_digits _ _) (frac_nondigit us hr) (frac_nondigit us' hr') h
  obtain ⟨h3, h4⟩ := frac_split hu hu' hr hr' pr pr' h2
  exact ⟨padText_inj h1, h3, h4⟩

theorem minSec_inj {t t' : Int} (h : minSecText t = minSecText t') :
    (ivMin t).natAbs = (ivMin t').natAbs ∧ ivSec t = ivSec t' ∧ ivMicro t = ivMicro t' := by
  simp only [minSecText, List.cons_append, List.nil_append, List.cons.injEq, true_and] at h
  obtain ⟨h1, -, h2⟩ := digits_sep (padText_digits _ _) (padText_digits _ _) (by omega) (by omega) h
  rw [← List.append_nil (secText _ _ _), ← List.append_nil (secText true (ivSec t') _)] at h2
  obtain ⟨h3, h4, -⟩ := secText_split (micro_lt t) (micro_lt t') Nondigit.nil Nondigit.nil (by simp) (by simp) h2
  exact ⟨padText_inj h1, h3, h4⟩

theorem minSec_nondigit (t : Int) : Nondigit (minSecText t) := Nondigit.cons (by omega)

theorem sqlClock_inj {t t' : Int} (h : sqlClockText t = sqlClockText t') : t.natAbs = t'.natAbs := by
  unfold sqlClockText at h
  obtain ⟨h1, h2⟩ := digits_split (natText_digits _) (natText_digits _) (minSec_nondigit t) (minSec_nondigit t') h
  obtain ⟨h3, h4, h5⟩ := minSec_inj h2
  exact time_of (natText_inj h1) h3 h4 h5

/-! ## SQL -/

/-- What follows the first number. -/
def sqlRest (m d t : Int) : Bytes :=
  if m = 0 ∧ d = 0 ∧ t = 0 then []
  else if sqlMixedParts m d t then
    [45] ++ (natText (ivMon m).natAbs ++ ([32] ++ (signText (d < 0) ++ (natText d.natAbs ++ ([32] ++ (signText (t < 0) ++ sqlClockText t))))))
  else if m ≠ 0 then [45] ++ natText (ivMon m).natAbs
  else if d ≠ 0 then [32] ++ sqlClockText t
  else minSecText t

/-- The sign before the first number. -/
def sqlSg (m d t : Int) : Bytes :=
  if m = 0 ∧ d = 0 ∧ t = 0 then []
  else if sqlMixedParts m d t then signText (m < 0)
  else minus (m < 0 ∨ d < 0 ∨ t < 0)

/-- The first number. -/
def sqlFirst (m d t : Int) : Nat :=
  if m = 0 ∧ d = 0 ∧ t = 0 then 0
  else if sqlMixedParts m d t then (ivYear m).natAbs
  else if m ≠ 0 then (ivYear m).natAbs
  else if d ≠ 0 then d.natAbs
  else (ivHour t).natAbs

theorem sql_eq (m d t : Int) : sqlIntervalText m d t = sqlSg m d t ++ (natText (sqlFirst m d t) ++ sqlRest m d t) := by
  unfold sqlIntervalText sqlSg sqlFirst sqlRest
  by_cases h1 : m = 0 ∧ d = 0 ∧ t = 0
  · simp only [if_pos h1]; simp [natText]
  · simp only [if_neg h1]
    by_cases h2 : sqlMixedParts m d t = true
    · simp only [if_pos h2]
    · simp only [if_neg h2]
      by_cases h3 : m ≠ 0
      · simp only [if_pos h3]
      · simp only [if_neg h3]
        by_cases h4 : d ≠ 0
        · simp only [if_pos h4]
        · simp only [if_neg h4, sqlClockText]

theorem sqlRest_nondigit (m d t : Int) : Nondigit (sqlRest m d t) := by
  unfold sqlRest
  split
  · exact Nondigit.nil
  · split
    · exact Nondigit.cons (by omega)
    · split
      · exact Nondigit.cons (by omega)
      · split
        · exact Nondigit.cons (by omega)
        · exact minSec_nondigit t

theorem sqlSg_lead (m d t : Int) : ∀ x ∈ sqlSg m d t, LeadB x := by
  unfold sqlSg
  split
  · simp
  · split
    · exact sign_lead _
    · exact minus_lead _

theorem not_mixed {m d t : Int} (h : ¬ sqlMixedParts m d t = true) :
    ((0 ≤ m ∧ 0 ≤ d ∧ 0 ≤ t) ∨ (m ≤ 0 ∧ d ≤ 0 ∧ t ≤ 0)) ∧ (m ≠ 0 → d = 0 ∧ t = 0) := by
  unfold sqlMixedParts at h
  simp only [Bool.or_eq_true, Bool.and_eq_true, decide_eq_true_eq] at h
  omega

theorem sqlIntervalText_inj {m d t m' d' t' : Int} (e : sqlIntervalText m d t = sqlIntervalText m' d' t') : m = m' ∧ d = d' ∧ t = t' := by
  rw [sql_eq, sql_eq] at e
  obtain ⟨e1, e2, e3⟩ := lead_split (sqlSg_lead _ _ _) (sqlSg_lead _ _ _) (natText_digits _) (natText_digits _) (natText_ne _) (natText_ne _)
    (sqlRest_nondigit _ _ _) (sqlRest_nondigit _ _ _) e
  have e2 := natText_inj e2
  clear e
  have end32 : ∀ {a b : Nat} {r : Bytes}, natText a ++ ([32] ++ r) ≠ natText b := by
    intro a b r h
    exact digits_end (natText_digits b) (c := 32) (by omega) h
  unfold sqlSg at e1
  unfold sqlFirst at e2
  unfold sqlRest at e3
  by_cases h1 : m = 0 ∧ d = 0 ∧ t = 0
  · rw [if_pos h1] at e3
    by_cases h1' : m' = 0 ∧ d' = 0 ∧ t' = 0
    · omega
    · rw [if_neg h1'] at e3
      split at e3
      · cases e3
      · split at e3
        · cases e3
        · split at e3
          · cases e3
          · cases e3
  · rw [if_neg h1] at e1 e2 e3
    by_cases h1' : m' = 0 ∧ d' = 0 ∧ t' = 0
    · rw [if_pos h1'] at e3
      split at e3
      · cases e3
      · split at e3
        · cases e3
        · split at e3
          · cases e3
          · cases e3
    · rw [if_neg h1'] at e1 e2 e3
      by_cases h2 : sqlMixedParts m d t = true
      · rw [if_pos h2] at e1 e2 e3
        by_cases h2' : sqlMixedParts m' d' t' = true
        · rw [if_pos h2'] at e1 e2 e3
          have s1 := signText_inj e1
          simp only [List.cons_append, List.nil_append, List.cons.injEq, true_and] at e3
          obtain ⟨e4, -, e5⟩ := digits_sep (natText_digits _) (natText_digits _) (by omega) (by omega) e3
          obtain ⟨e6, e7, e8⟩ := lead_split (sign_lead _) (sign_lead _) (natText_digits _) (natText_digits _) (natText_ne _) (natText_ne _)
            (Nondigit.cons (by omega)) (Nondigit.cons (by omega)) e5
          simp only [List.cons.injEq, true_and] at e8
          unfold sqlClockText at e8
          obtain ⟨e9, e10, e11⟩ := lead_split (sign_lead _) (sign_lead _) (natText_digits _) (natText_digits _) (natText_ne _) (natText_ne _)
            (minSec_nondigit _) (minSec_nondigit _) e8
          obtain ⟨e12, e13, e14⟩ := minSec_inj e11
          have s2 := signText_inj e6
          have s3 := signText_inj e9
          simp only [decide_eq_decide] at s1 s2 s3
          exact ⟨same_sign (months_of e2 (natText_inj e4)) s1, same_sign (natText_inj e7) s2,
            same_sign (time_of (natText_inj e10) e12 e13 e14) s3⟩
        · rw [if_neg h2'] at e3
          split at e3
          · simp only [List.cons_append, List.nil_append, List.cons.injEq, true_and] at e3
            exact absurd e3 end32
          · split at e3
            · cases e3
            · cases e3
      · rw [if_neg h2] at e1 e2 e3
        obtain ⟨n1, n2⟩ := not_mixed h2
        by_cases h2' : sqlMixedParts m' d' t' = true
        · rw [if_pos h2'] at e3
          split at e3
          · simp only [List.cons_append, List.nil_append, List.cons.injEq, true_and] at e3
            exact absurd e3.symm end32
          · split at e3
            · cases e3
            · cases e3
        · rw [if_neg h2'] at e1 e2 e3
          obtain ⟨n1', n2'⟩ := not_mixed h2'
          have s1 := minus_inj e1
          simp only [decide_eq_decide] at s1
          by_cases h3 : m ≠ 0
          · rw [if_pos h3] at e2 e3
            by_cases h3' : m' ≠ 0
            · rw [if_pos h3'] at e2 e3
              simp only [List.cons_append, List.nil_append, List.cons.injEq, true_and] at e3
              have := months_of e2 (natText_inj e3)
              have := n2 h3
              have := n2' h3'
              omega
            · rw [if_neg h3'] at e3
              split at e3
              · cases e3
              · cases e3
          · rw [if_neg h3] at e2 e3
            by_cases h3' : m' ≠ 0
            · rw [if_pos h3'] at e3
              split at e3
              · cases e3
              · cases e3
            · rw [if_neg h3'] at e2 e3
              by_cases h4 : d ≠ 0
              · rw [if_pos h4] at e2 e3
                by_cases h4' : d' ≠ 0
                · rw [if_pos h4'] at e2 e3
                  simp only [List.cons_append, List.nil_append, List.cons.injEq, true_and] at e3
                  have := sqlClock_inj e3
                  omega
                · rw [if_neg h4'] at e3
                  cases e3
              · rw [if_neg h4] at e2 e3
                by_cases h4' : d' ≠ 0
                · rw [if_pos h4'] at e3
                  cases e3
                · rw [if_neg h4'] at e2 e3
                  obtain ⟨e4, e5, e6⟩ := minSec_inj e3
                  have := time_of e2 e4 e5 e6
                  omega

/-! ## Postgres -/

theorem pgLead_lead (prev : Option Bool) (n : Bool) : ∀ x ∈ pgLead prev n, LeadB x := by
  intro x hx
  unfold pgLead at hx
  rcases List.mem_append.1 hx with h | h
  · split at h
    · cases h
    · simp at h; exact Or.inl h
  · split at h
    · simp at h; exact Or.inr (Or.inr h)
    · split at h
      · simp at h; exact Or.inr (Or.inl h)
      · cases h

theorem pgLead_inj {prev : Option Bool} {a b : Bool} (h : pgLead prev a = pgLead prev b) : a = b := by
  have h := List.append_cancel_left h
  cases a <;> cases b <;> first | rfl | (exfalso; revert h; simp; split <;> simp)

theorem pgWord_eq (prev : Option Bool) (v : Int) (unit : Bytes) : pgWord prev v unit =
    if v = 0 then [] else pgLead prev (v < 0) ++ (natText v.natAbs ++ ((32 :: unit) ++ if v = 1 then [] else [115])) := by
  unfold pgWord
  split
  · rfl
  · simp

theorem pgWord_split {prev : Option Bool} {v v' : Int} {u R R' : Bytes} (hR : ¬ Starts (32 :: u) R) (hR' : ¬ Starts (32 :: u) R')
    (h : pgWord prev v u ++ R = pgWord prev v' u ++ R') : v = v' ∧ R = R' := by
  rw [pgWord_eq, pgWord_eq] at h
  obtain ⟨h1, h2, h3⟩ := opt_split (Nondigit.cons (by omega)) (by simp) (pgLead_lead _ _) (pgLead_lead _ _) (natText_digits _) (natText_digits _)
    (natText_ne _) (natText_ne _) hR hR' h
  by_cases hv : v = 0
  · exact ⟨by rw [hv, h1.1 hv], h2 hv⟩
  · obtain ⟨h4, h5, h6⟩ := h3 hv
    have := pgLead_inj h4
    simp only [decide_eq_decide] at this
    have e := same_sign (natText_inj h5) this
    subst e
    exact ⟨rfl, List.append_cancel_left h6⟩

theorem pgWord_not {prev : Option Bool} {v : Int} {u x R : Bytes} (h : Unlike (32 :: x) (32 :: u)) (hR : ¬ Starts (32 :: x) R) :
    ¬ Starts (32 :: x) (pgWord prev v u ++ R) := by
  rw [pgWord_eq]
  exact opt_not_starts (pgLead_lead _ _) (natText_digits _) (natText_ne _) (Nondigit.cons (by omega)) (by simp)
    (Nondigit.cons (by omega)) (by simp) h hR

theorem pgIntervalText_inj {m d t m' d' t' : Int} (e : pgIntervalText m d t = pgIntervalText m' d' t') : m = m' ∧ d = d' ∧ t = t' := by
  unfold pgIntervalText at e
  dsimp only at e
  have tail : ∀ (s : Option Bool) (t : Int) (x : Bytes), ¬ Starts (32 :: x)
      (if s = none ∨ t ≠ 0 then pgLead s (t < 0) ++ (padText 2 (ivHour t).natAbs ++ minSecText t) else []) := by
    intro s t x
    split
    · rw [minSecText]
      exact not_starts (pgLead_lead _ _) (padText_digits _ _) (padText_ne _ _) (Nondigit.cons (by omega)) (by simp) (Nondigit.cons (by omega))
        (by simp) (fun r r' h => by cases h)
    · exact not_starts_nil _
  obtain ⟨e1, e2⟩ := pgWord_split (u := [121, 101, 97, 114])
    (pgWord_not (fun r r' h => by cases h) (pgWord_not (fun r r' h => by cases h) (tail _ _ _)))
    (pgWord_not (fun r r' h => by cases h) (pgWord_not (fun r r' h => by cases h) (tail _ _ _))) e
  rw [e1] at e2
  obtain ⟨e3, e4⟩ := pgWord_split (u := [109, 111, 110]) (pgWord_not (fun r r' h => by cases h) (tail _ _ _))
    (pgWord_not (fun r r' h => by cases h) (tail _ _ _)) e2
  rw [e3] at e4
  obtain ⟨e5, e6⟩ := pgWord_split (u := [100, 97, 121]) (tail _ _ _) (tail _ _ _) e4
  have em : m = m' := by
    have a := Int.mul_tdiv_add_tmod m 12
    have b := Int.mul_tdiv_add_tmod m' 12
    unfold ivYear at e1
    unfold ivMon at e3
    omega
  subst em
  subst e5
  refine ⟨rfl, rfl, ?_⟩
  generalize pgNext (pgNext (pgNext none (ivYear m)) (ivMon m)) d = s at e6
  have ne : ∀ t : Int, pgLead s (t < 0) ++ (padText 2 (ivHour t).natAbs ++ minSecText t) ≠ [] := by
    intro t; simp [minSecText]
  by_cases h1 : s = none ∨ t ≠ 0
  · rw [if_pos h1] at e6
    by_cases h2 : s = none ∨ t' ≠ 0
    · rw [if_pos h2] at e6
      obtain ⟨f1, f2, f3⟩ := lead_split (pgLead_lead _ _) (pgLead_lead _ _) (padText_digits _ _) (padText_digits _ _) (padText_ne _ _) (padText_ne _ _)
        (minSec_nondigit _) (minSec_nondigit _) e6
      obtain ⟨g1, g2, g3⟩ := minSec_inj f3
      have := pgLead_inj f1
      simp only [decide_eq_decide] at this
      exact same_sign (time_of (padText_inj f2) g1 g2 g3) this
    · rw [if_neg h2] at e6
      exact absurd e6 (ne t)
  · rw [if_neg h1] at e6
    by_cases h2 : s = none ∨ t' ≠ 0
    · rw [if_pos h2] at e6
      exact absurd e6.symm (ne t')
    · have : t = 0 := by by_contra h; exact h1 (Or.inr h)
      have : t' = 0 := by by_contra h; exact h2 (Or.inr h)
      omega

/-! ## Verbose -/

theorem verboseWord_eq (l : Bool) (v : Int) (unit : Bytes) : verboseWord l v unit =
    if v = 0 then [] else (32 :: minus (decide (v < 0) != l)) ++ (natText v.natAbs ++ ((32 :: unit) ++ if v = 1 then [] else [115])) := by
  unfold verboseWord
  split
  · rfl
  · simp

theorem vlead (b : Bool) : ∀ x ∈ 32 :: minus b, LeadB x := by
  intro x hx
  rcases List.mem_cons.1 hx with rfl | h
  · exact Or.inl rfl
  · exact minus_lead b x h

theorem verboseWord_split {l : Bool} {v v' : Int} {u R R' : Bytes} (hR : ¬ Starts (32 :: u) R) (hR' : ¬ Starts (32 :: u) R')
    (h : verboseWord l v u ++ R = verboseWord l v' u ++ R') : v = v' ∧ R = R' := by
  rw [verboseWord_eq, verboseWord_eq] at h
  obtain ⟨h1, h2, h3⟩ := opt_split (Nondigit.cons (by omega)) (by simp) (vlead _) (vlead _) (natText_digits _) (natText_digits _)
    (natText_ne _) (natText_ne _) hR hR' h
  by_cases hv : v = 0
  · exact ⟨by rw [hv, h1.1 hv], h2 hv⟩
  · obtain ⟨h4, h5, h6⟩ := h3 hv
    simp only [List.cons.injEq, true_and] at h4
    have h4 := minus_inj h4
    have : v < 0 ↔ v' < 0 := by
      cases l <;> simpa [decide_eq_decide] using h4
    have e := same_sign (natText_inj h5) this
    subst e
    exact ⟨rfl, List.append_cancel_left h6⟩

theorem verboseWord_not {l : Bool} {v : Int} {u x R : Bytes} (h : Unlike (32 :: x) (32 :: u)) (hR : ¬ Starts (32 :: x) R) :
    ¬ Starts (32 :: x) (verboseWord l v u ++ R) := by
  rw [verboseWord_eq]
  exact opt_not_starts (vlead _) (natText_digits _) (natText_ne _) (Nondigit.cons (by omega)) (by simp)
    (Nondigit.cons (by omega)) (by simp) h hR

/-- The text does not end in `o`. -/
def NoO (s : Bytes) : Prop := s.getLast? ≠ some 111

theorem NoO.append {a b : Bytes} (ha : NoO a) (hb : NoO b) : NoO (a ++ b) := by
  unfold NoO at *
  rw [List.getLast?_append]
  cases h : b.getLast? with
  | none => simpa [h] using ha
  | some x => rw [h] at hb; simpa using hb

theorem noO_digits {a : Bytes} (h : Digits a) : NoO a := by
  intro e
  have := h 111 (List.mem_of_getLast? e)
  omega

theorem noO_of {a b : Bytes} (hb : NoO b) (nb : b ≠ []) : NoO (a ++ b) := by
  unfold NoO at *
  rw [List.getLast?_append]
  cases h : b.getLast? with
  | none => exact absurd (List.getLast?_eq_none_iff.1 h) nb
  | some x => rw [h] at hb; simpa using hb

theorem noO_word (l : Bool) (v : Int) {u : Bytes} (hu : NoO u) (nu : u ≠ []) : NoO (verboseWord l v u) := by
  unfold verboseWord
  split
  · simp [NoO]
  · rw [← List.append_assoc, ← List.append_assoc, ← List.append_assoc]
    refine noO_of (NoO.append hu ?_) (by simp [nu])
    split <;> simp [NoO]

theorem noO_sec (l : Bool) (t : Int) : NoO (verboseSecText l t) := by
  unfold verboseSecText
  split
  · simp [NoO]
  · rw [← List.append_assoc, ← List.append_assoc]
    refine noO_of ?_ (by simp)
    split <;> simp [NoO]

theorem verbose_last (m d t : Int) : (verboseIntervalText m d t).getLast? = some 111 ↔ leadNeg m d t = true := by
  unfold verboseIntervalText
  dsimp only
  cases hl : leadNeg m d t with
  | true =>
    simp only [if_true, iff_true]
    rw [← List.append_assoc, ← List.append_assoc, ← List.append_assoc, ← List.append_assoc, ← List.append_assoc, ← List.append_assoc,
      ← List.append_assoc, List.getLast?_append]
    rfl
  | false =>
    simp only [Bool.false_eq_true, if_false, iff_false, List.append_nil]
    refine NoO.append (by simp [NoO]) (NoO.append (noO_word _ _ (by simp [NoO]) (by simp)) (NoO.append (noO_word _ _ (by simp [NoO]) (by simp))
      (NoO.append (noO_word _ _ (by simp [NoO]) (by simp)) (NoO.append (noO_word _ _ (by simp [NoO]) (by simp))
        (NoO.append (noO_word _ _ (by simp [NoO]) (by simp)) (NoO.append (noO_sec _ _) ?_))))))
    split <;> simp [NoO]

/-- The end of the text. -/
theorem verbose_end (z l : Bool) (hz : z = true → l = false) {k : Bytes} (hk : Nondigit k) (nk : k ≠ []) :
    ¬ Starts k ((if z then [32, 48] else []) ++ if l then [32, 97, 103, 111] else []) := by
  cases z with
  | true =>
    rw [hz rfl]
    exact not_starts_end (sg := [32]) (a := [48]) (by simp [LeadB]) (by intro b hb; simp at hb; omega) (by simp) hk nk
  | false =>
    cases l with
    | true => exact not_starts_space (by unfold LeadB; omega) (by omega)
    | false => exact not_starts_nil _

theorem verboseIntervalText_inj {m d t m' d' t' : Int} (e : verboseIntervalText m d t = verboseIntervalText m' d' t') :
    m = m' ∧ d = d' ∧ t = t' := by
  have hl : leadNeg m d t = leadNeg m' d' t' := by
    rw [Bool.eq_iff_iff, ← verbose_last, ← verbose_last, e]
  unfold verboseIntervalText at e
  dsimp only at e
  have zl : ∀ m d t : Int, (decide (m = 0 ∧ d = 0 ∧ t = 0)) = true → leadNeg m d t = false := by
    intro m d t h
    obtain ⟨rfl, rfl, rfl⟩ : m = 0 ∧ d = 0 ∧ t = 0 := by simpa using h
    rfl
  have ends : ∀ (m d t : Int) {k : Bytes}, Nondigit k → k ≠ [] →
      ¬ Starts k ((if m = 0 ∧ d = 0 ∧ t = 0 then [32, 48] else []) ++ if leadNeg m d t then [32, 97, 103, 111] else []) := by
    intro m d t k hk nk
    have := verbose_end _ _ (zl m d t) hk nk
    simpa only [decide_eq_true_eq] using this
  have secs : ∀ (l : Bool) (m d t : Int) {a : Nat} {x : Bytes}, a ≠ 115 → ¬ Starts (32 :: a :: x) (verboseSecText l t ++
      ((if m = 0 ∧ d = 0 ∧ t = 0 then [32, 48] else []) ++ if leadNeg m d t then [32, 97, 103, 111] else [])) := by
    intro l m d t a x ha
    unfold verboseSecText
    split
    · exact ends m d t (Nondigit.cons (by omega)) (by simp)
    · have n := frac_byte (ivMicro t) (c := 32) (r := [115, 101, 99]) (by omega)
      have k := fun r => not_starts (k := 32 :: a :: x) (k' := fracText (ivMicro t) ++ [32, 115, 101, 99]) (r := r) (vlead (decide (t < 0) != l))
        (natText_digits (ivSec t)) (natText_ne _) (Nondigit.cons (by omega)) (by simp) n.1 n.2 (fun r r' h => by
          unfold fracText at h
          split at h
          · simp at h; exact ha h.1
          · simp at h)
      simpa [secText] using k _
  rw [hl] at e
  simp only [List.cons_append, List.nil_append, List.cons.injEq, true_and] at e
  have s0 := fun (l : Bool) (a : Nat) (x : Bytes) (ha : a ≠ 115) => hl ▸ secs l m d t (a := a) (x := x) ha
  have s0' := fun (l : Bool) (a : Nat) (x : Bytes) (ha : a ≠ 115) => secs l m' d' t' (a := a) (x := x) ha
  have no : ∀ {x u : Bytes}, (∀ r r', x ++ r ≠ u ++ r') → Unlike (32 :: x) (32 :: u) := by
    intro x u h r r' h'
    simp only [List.cons_append, List.cons.injEq, true_and] at h'
    exact h r r' h'
  obtain ⟨e1, f1⟩ := verboseWord_split (u := [121, 101, 97, 114])
    (verboseWord_not (no (by intro r r' h; cases h)) (verboseWord_not (no (by intro r r' h; cases h)) (verboseWord_not (no (by intro r r' h; cases h))
      (verboseWord_not (no (by intro r r' h; cases h)) (s0 _ _ _ (by omega))))))
    (verboseWord_not (no (by intro r r' h; cases h)) (verboseWord_not (no (by intro r r' h; cases h)) (verboseWord_not (no (by intro r r' h; cases h))
      (verboseWord_not (no (by intro r r' h; cases h)) (s0' _ _ _ (by omega)))))) e
  obtain ⟨e2, f2⟩ := verboseWord_split (u := [109, 111, 110])
    (verboseWord_not (no (by intro r r' h; cases h)) (verboseWord_not (no (by intro r r' h; cases h))
      (verboseWord_not (no (by intro r r' h; cases h)) (s0 _ _ _ (by omega)))))
    (verboseWord_not (no (by intro r r' h; cases h)) (verboseWord_not (no (by intro r r' h; cases h))
      (verboseWord_not (no (by intro r r' h; cases h)) (s0' _ _ _ (by omega))))) f1
  obtain ⟨e3, f3⟩ := verboseWord_split (u := [100, 97, 121])
    (verboseWord_not (no (by intro r r' h; cases h)) (verboseWord_not (no (by intro r r' h; cases h)) (s0 _ _ _ (by omega))))
    (verboseWord_not (no (by intro r r' h; cases h)) (verboseWord_not (no (by intro r r' h; cases h)) (s0' _ _ _ (by omega)))) f2
  obtain ⟨e4, f4⟩ := verboseWord_split (u := [104, 111, 117, 114])
    (verboseWord_not (no (by intro r r' h; cases h)) (s0 _ _ _ (by omega)))
    (verboseWord_not (no (by intro r r' h; cases h)) (s0' _ _ _ (by omega))) f3
  obtain ⟨e5, f5⟩ := verboseWord_split (u := [109, 105, 110]) (s0 _ _ _ (by omega)) (s0' _ _ _ (by omega)) f4
  have em : m = m' := by
    have a := Int.mul_tdiv_add_tmod m 12
    have b := Int.mul_tdiv_add_tmod m' 12
    unfold ivYear at e1
    unfold ivMon at e2
    omega
  refine ⟨em, e3, ?_⟩
  have en := @ends m d t
  rw [hl] at en
  have en' := @ends m' d' t'
  unfold verboseSecText at f5
  have zero : ∀ {t t' : Int}, ivHour t = ivHour t' → ivMin t = ivMin t' → t.natAbs % 60000000 = 0 → t'.natAbs % 60000000 = 0 → t = t' := by
    intro t t' h1 h2 h3 h4
    unfold ivHour at h1
    unfold ivMin at h2
    have a := Int.mul_tdiv_add_tmod t 3600000000
    have a' := Int.mul_tdiv_add_tmod t' 3600000000
    have b := Int.mul_tdiv_add_tmod (t.tmod 3600000000) 60000000
    have b' := Int.mul_tdiv_add_tmod (t'.tmod 3600000000) 60000000
    have c : (t.tmod 3600000000).tmod 60000000 = 0 := by
      rw [Int.tmod_tmod_of_dvd _ (by omega)]; exact Int.tmod_eq_zero_of_dvd (by omega)
    have c' : (t'.tmod 3600000000).tmod 60000000 = 0 := by
      rw [Int.tmod_tmod_of_dvd _ (by omega)]; exact Int.tmod_eq_zero_of_dvd (by omega)
    omega
  have shape : ∀ (l : Bool) (t : Int) (q R : Bytes), ([32] ++ (minus (decide (t < 0) != l) ++ (secText false (ivSec t) (ivMicro t) ++
      ([32, 115, 101, 99] ++ q)))) ++ R =
      (32 :: minus (decide (t < 0) != l)) ++ (natText (ivSec t) ++ ((fracText (ivMicro t) ++ [32, 115, 101, 99]) ++ (q ++ R))) := by
    intro l t q R
    simp [secText]
  by_cases z : t.natAbs % 60000000 = 0 <;> by_cases z' : t'.natAbs % 60000000 = 0
  · exact zero e4 e5 z z'
  · rw [if_pos z, if_neg z', shape, List.nil_append] at f5
    have n := frac_byte (ivMicro t') (c := 32) (r := [115, 101, 99]) (by omega)
    exact absurd ⟨_, _, _, vlead _, natText_digits _, natText_ne _, f5⟩ (en n.1 n.2)
  · rw [if_neg z, if_pos z', shape, List.nil_append] at f5
    have n := frac_byte (ivMicro t) (c := 32) (r := [115, 101, 99]) (by omega)
    exact absurd ⟨_, _, _, vlead _, natText_digits _, natText_ne _, f5.symm⟩ (en' n.1 n.2)
  · rw [if_neg z, if_neg z', shape, shape] at f5
    simp only [List.append_assoc] at f5
    obtain ⟨g1, g2, g3⟩ := lead_split (vlead _) (vlead _) (natText_digits _) (natText_digits _) (natText_ne _) (natText_ne _)
      (frac_nondigit _ (Nondigit.cons (by omega))) (frac_nondigit _ (Nondigit.cons (by omega))) f5
    obtain ⟨g4, -⟩ := frac_split (micro_lt t) (micro_lt t') (Nondigit.cons (by omega)) (Nondigit.cons (by omega)) (by simp) (by simp) g3
    simp only [List.cons.injEq, true_and] at g1
    have g1 := minus_inj g1
    have : t < 0 ↔ t' < 0 := by
      revert g1
      cases leadNeg m' d' t' <;> simp [decide_eq_decide]
    exact same_sign (time_of (by rw [e4]) (by rw [e5]) (natText_inj g2) g4) this

/-! ## Timestamps -/

theorem clock_split {t t' : Clock} (ht : t.Real ∨ t = ⟨24, 0, 0, 0⟩) (ht' : t'.Real ∨ t' = ⟨24, 0, 0, 0⟩) {r r' : Bytes} (hr : Nondigit r) (hr' : Nondigit r')
    (pr : r.head? ≠ some 46) (pr' : r'.head? ≠ some 46) (h : clockText t ++ r = clockText t' ++ r') : t = t' ∧ r = r' := by
  obtain ⟨a, b, c, d⟩ := t
  obtain ⟨a', b', c', d'⟩ := t'
  unfold Clock.Real at ht ht'
  simp only [Clock.mk.injEq] at ht ht'
  simp only [clockText, List.append_assoc, List.cons_append, List.nil_append] at h
  obtain ⟨e1, -, h1⟩ := digits_sep (two_digits _) (two_digits _) (by omega) (by omega) h
  obtain ⟨e2, -, h2⟩ := digits_sep (two_digits _) (two_digits _) (by omega) (by omega) h1
  obtain ⟨e3, e4, e5⟩ := secText_split (by omega) (by omega) hr hr' pr pr' h2
  have e1 := two_inj (by omega) (by omega) e1
  have e2 := two_inj (by omega) (by omega) e2
  refine ⟨?_, e5⟩
  simp only [Clock.mk.injEq]
  omega

theorem era_nondigit (y : Int) : Nondigit (eraText y) ∧ (eraText y).head? ≠ some 46 := by
  unfold eraText
  split
  · exact ⟨Nondigit.cons (by omega), by simp⟩
  · exact ⟨Nondigit.nil, by simp⟩

theorem dayName_len (c : YMD) : (dayNameText c).length = 3 := by
  unfold dayNameText
  have : ((dayNumber c + 6) % 7).toNat < 7 := by omega
  generalize ((dayNumber c + 6) % 7).toNat = n at this
  revert n
  decide

theorem monthName_len {m : Int} (h : 1 ≤ m ∧ m ≤ 12) : (monthNameText m).length = 3 := by
  unfold monthNameText
  have : (m - 1).toNat < 12 := by omega
  generalize (m - 1).toNat = n at this
  revert n
  decide

theorem monthName_inj {m m' : Int} (h : 1 ≤ m ∧ m ≤ 12) (h' : 1 ≤ m' ∧ m' ≤ 12) (e : monthNameText m = monthNameText m') : m = m' := by
  unfold monthNameText at e
  have a : (m - 1).toNat < 12 := by omega
  have b : (m' - 1).toNat < 12 := by omega
  have : (m - 1).toNat = (m' - 1).toNat := by
    generalize (m - 1).toNat = n at *
    generalize (m' - 1).toNat = n' at *
    revert n n'
    decide
  omega

theorem timestampText_inj (st : DateStyle) (o : DateOrder) {c c' : YMD} {t t' : Clock} (hc : c.Real) (hc' : c'.Real) (ht : t.Real) (ht' : t'.Real)
    (h : timestampText st o c t = timestampText st o c' t') : c = c' ∧ t = t' := by
  have bd := real_bounds hc
  have bd' := real_bounds hc'
  obtain ⟨y, m, d⟩ := c
  obtain ⟨y', m', d'⟩ := c'
  simp only at bd bd'
  have iso : ∀ s : Nat, ¬ (48 ≤ s ∧ s ≤ 57) → (yearText y ++ ([45] ++ (two m ++ ([45] ++ two d)))) ++ ([s] ++ clockText t) ++ eraText y =
      (yearText y' ++ ([45] ++ (two m' ++ ([45] ++ two d')))) ++ ([s] ++ clockText t') ++ eraText y' →
      (⟨y, m, d⟩ : YMD) = ⟨y', m', d'⟩ ∧ t = t' := by
    intro s hs h
    simp only [List.append_assoc, List.cons_append, List.nil_append] at h
    obtain ⟨e1, -, h⟩ := digits_sep (yearText_digits _) (yearText_digits _) (by omega) (by omega) h
    obtain ⟨e2, -, h⟩ := digits_sep (two_digits _) (two_digits _) (by omega) (by omega) h
    obtain ⟨e3, -, h⟩ := digits_sep (two_digits _) (two_digits _) hs hs h
    obtain ⟨e4, h⟩ := clock_split (Or.inl ht) (Or.inl ht') (era_nondigit _).1 (era_nondigit _).1 (era_nondigit _).2 (era_nondigit _).2 h
    rw [year_era_inj e1 h, two_inj (by omega) (by omega) e2, two_inj (by omega) (by omega) e3]
    exact ⟨rfl, e4⟩
  have seq : ∀ (s1 : Nat) (a b a' b' : Int), (¬ (48 ≤ s1 ∧ s1 ≤ 57)) →
      0 ≤ a → 0 ≤ b → 0 ≤ a' → 0 ≤ b' →
      (two a ++ ([s1] ++ (two b ++ ([s1] ++ yearText y)))) ++ ([32] ++ clockText t) ++ eraText y =
      (two a' ++ ([s1] ++ (two b' ++ ([s1] ++ yearText y')))) ++ ([32] ++ clockText t') ++ eraText y' →
      a = a' ∧ b = b' ∧ y = y' ∧ t = t' := by
    intro s1 a b a' b' n1 p1 p2 p3 p4 h
    simp only [List.append_assoc, List.cons_append, List.nil_append] at h
    obtain ⟨e1, -, h⟩ := digits_sep (two_digits _) (two_digits _) n1 n1 h
    obtain ⟨e2, -, h⟩ := digits_sep (two_digits _) (two_digits _) n1 n1 h
    obtain ⟨e3, -, h⟩ := digits_sep (yearText_digits _) (yearText_digits _) (by omega) (by omega) h
    obtain ⟨e4, h⟩ := clock_split (Or.inl ht) (Or.inl ht') (era_nondigit _).1 (era_nondigit _).1 (era_nondigit _).2 (era_nondigit _).2 h
    exact ⟨two_inj p1 p3 e1, two_inj p2 p4 e2, year_era_inj e3 h, e4⟩
  have fin : clockText t ++ ([32] ++ yearText y) ++ eraText y = clockText t' ++ ([32] ++ yearText y') ++ eraText y' → t = t' ∧ y = y' := by
    intro h
    simp only [List.append_assoc, List.cons_append, List.nil_append] at h
    obtain ⟨e4, h⟩ := clock_split (Or.inl ht) (Or.inl ht') (Nondigit.cons (by omega)) (Nondigit.cons (by omega)) (by simp) (by simp) h
    simp only [List.cons.injEq, true_and] at h
    exact ⟨e4, year_era h⟩
  have pg1 : dayNameText ⟨y, m, d⟩ ++ ([32] ++ ((monthNameText m ++ ([32] ++ two d)) ++ ([32] ++ (clockText t ++ ([32] ++ yearText y))))) ++ eraText y =
      dayNameText ⟨y', m', d'⟩ ++ ([32] ++ ((monthNameText m' ++ ([32] ++ two d')) ++ ([32] ++ (clockText t' ++ ([32] ++ yearText y'))))) ++ eraText y' →
      (⟨y, m, d⟩ : YMD) = ⟨y', m', d'⟩ ∧ t = t' := by
    intro h
    simp only [List.append_assoc] at h
    obtain ⟨-, h⟩ := List.append_inj h (by rw [dayName_len, dayName_len])
    simp only [List.cons_append, List.nil_append, List.cons.injEq, true_and] at h
    obtain ⟨e1, h⟩ := List.append_inj h (by rw [monthName_len (by omega), monthName_len (by omega)])
    simp only [List.cons.injEq, true_and] at h
    obtain ⟨e2, -, h⟩ := digits_sep (two_digits _) (two_digits _) (by omega) (by omega) h
    obtain ⟨e3, e4⟩ := fin (by simpa using h)
    rw [monthName_inj (by omega) (by omega) e1, two_inj (by omega) (by omega) e2, e4]
    exact ⟨rfl, e3⟩
  have pg2 : dayNameText ⟨y, m, d⟩ ++ ([32] ++ ((two d ++ ([32] ++ monthNameText m)) ++ ([32] ++ (clockText t ++ ([32] ++ yearText y))))) ++ eraText y =
      dayNameText ⟨y', m', d'⟩ ++ ([32] ++ ((two d' ++ ([32] ++ monthNameText m')) ++ ([32] ++ (clockText t' ++ ([32] ++ yearText y'))))) ++ eraText y' →
      (⟨y, m, d⟩ : YMD) = ⟨y', m', d'⟩ ∧ t = t' := by
    intro h
    simp only [List.append_assoc] at h
    obtain ⟨-, h⟩ := List.append_inj h (by rw [dayName_len, dayName_len])
    simp only [List.cons_append, List.nil_append, List.cons.injEq, true_and] at h
    obtain ⟨e2, -, h⟩ := digits_sep (two_digits _) (two_digits _) (by omega) (by omega) h
    obtain ⟨e1, h⟩ := List.append_inj h (by rw [monthName_len (by omega), monthName_len (by omega)])
    simp only [List.cons.injEq, true_and] at h
    obtain ⟨e3, e4⟩ := fin (by simpa using h)
    rw [monthName_inj (by omega) (by omega) e1, two_inj (by omega) (by omega) e2, e4]
    exact ⟨rfl, e3⟩
  cases st
  case iso => exact iso 32 (by omega) h
  case xsd => exact iso 84 (by omega) h
  case german =>
    obtain ⟨rfl, rfl, rfl, rfl⟩ := seq 46 _ _ _ _ (by omega) (by dsimp only; omega) (by dsimp only; omega) (by dsimp only; omega) (by dsimp only; omega) h
    exact ⟨rfl, rfl⟩
  case sql =>
    cases o <;>
    · obtain ⟨rfl, rfl, rfl, rfl⟩ := seq 47 _ _ _ _ (by omega) (by dsimp only; omega) (by dsimp only; omega) (by dsimp only; omega) (by dsimp only; omega) h
      exact ⟨rfl, rfl⟩
  case postgres =>
    cases o
    · exact pg1 h
    · exact pg2 h
    · exact pg1 h

end Pg
