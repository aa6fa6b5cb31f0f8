import Verif.Model.Token

/-! # Keyword lookup: binary search and caches -/

namespace Pg

theorem cmpBytes_eq {a b : Bytes} : cmpBytes a b = .eq ↔ a = b := by
  induction a generalizing b with
  | nil => cases b <;> simp [cmpBytes]
  | cons x xs ih =>
    cases b with
    | nil => simp [cmpBytes]
    | cons y ys =>
      rw [cmpBytes]
      split
      · simp; omega
      · split
        · simp; omega
        · rw [ih]; simp; omega

theorem cmpBytes_swap {a b : Bytes} : cmpBytes a b = .gt ↔ cmpBytes b a = .lt := by
  induction a generalizing b with
  | nil => cases b <;> simp [cmpBytes]
  | cons x xs ih =>
    cases b with
    | nil => simp [cmpBytes]
    | cons y ys =>
      rw [cmpBytes, cmpBytes]
      by_cases h1 : x < y
      · rw [if_pos h1, if_neg (by omega), if_pos h1]; simp
      · by_cases h2 : y < x
        · rw [if_neg h1, if_pos h2, if_pos h2]; simp
        · rw [if_neg h1, if_neg h2, if_neg h2, if_neg h1]; exact ih

theorem cmpBytes_trans {a b c : Bytes} (h1 : cmpBytes a b = .lt) (h2 : cmpBytes b c = .lt) :
    cmpBytes a c = .lt := by
  induction a generalizing b c with
  | nil =>
    cases b with
    | nil => simp [cmpBytes] at h1
    | cons y ys => cases c <;> simp [cmpBytes] at h2 ⊢
  | cons x xs ih =>
    cases b with
    | nil => simp [cmpBytes] at h1
    | cons y ys =>
      cases c with
      | nil => simp [cmpBytes] at h2
      | cons z zs =>
        rw [cmpBytes] at h1 h2 ⊢
        by_cases a1 : x < y
        · by_cases b1 : y < z
          · rw [if_pos (by omega)]
          · by_cases b2 : z < y
            · rw [if_neg b1, if_pos b2] at h2; cases h2
            · rw [if_pos (by omega)]
        · by_cases a2 : y < x
          · rw [if_neg a1, if_pos a2] at h1; cases h1
          · rw [if_neg a1, if_neg a2] at h1
            by_cases b1 : y < z
            · rw [if_pos (by omega)]
            · by_cases b2 : z < y
              · rw [if_neg b1, if_pos b2] at h2; cases h2
              · rw [if_neg b1, if_neg b2] at h2
                rw [if_neg (by omega), if_neg (by omega)]
                exact ih h1 h2

/-- The table is strictly increasing in its keywords. -/
def TableSorted (t : List DateToken) : Prop :=
  t.Pairwise fun a b => cmpBytes a.token b.token = .lt

/-- Adjacent entries are increasing. -/
def adjSorted : List DateToken → Bool
  | a :: b :: rest => cmpBytes a.token b.token == .lt && adjSorted (b :: rest)
  | _ => true

theorem adjSorted_head {a : DateToken} {l : List DateToken} (h : adjSorted (a :: l) = true) :
    ∀ b ∈ l, cmpBytes a.token b.token = .lt := by
  induction l generalizing a with
  | nil => simp
  | cons b rest ih =>
    rw [adjSorted, Bool.and_eq_true, beq_iff_eq] at h
    intro c hc
    rcases List.mem_cons.mp hc with rfl | hc
    · exact h.1
    · exact cmpBytes_trans h.1 (ih h.2 c hc)

theorem adjSorted_tail {a : DateToken} {l : List DateToken} (h : adjSorted (a :: l) = true) :
    adjSorted l = true := by
  cases l with
  | nil => rfl
  | cons b rest => rw [adjSorted, Bool.and_eq_true] at h; exact h.2

theorem tableSorted_of_adj {l : List DateToken} (h : adjSorted l = true) : TableSorted l := by
  induction l with
  | nil => exact List.Pairwise.nil
  | cons a rest ih => exact List.Pairwise.cons (adjSorted_head h) (ih (adjSorted_tail h))

theorem dateTable_sorted : TableSorted dateTable := tableSorted_of_adj (by decide +kernel)
theorem deltaTable_sorted : TableSorted deltaTable := tableSorted_of_adj (by decide +kernel)

theorem TableSorted.lt {t : List DateToken} (h : TableSorted t) {i j : Nat} (hi : i < t.length)
    (hj : j < t.length) (hij : i < j) : cmpBytes t[i].token t[j].token = .lt :=
  List.pairwise_iff_getElem.mp h i j hi hj hij

theorem TableSorted.inj {t : List DateToken} (h : TableSorted t) {a b : DateToken} (ha : a ∈ t)
    (hb : b ∈ t) (hab : a.token = b.token) : a = b := by
  obtain ⟨i, hi, rfl⟩ := List.mem_iff_getElem.mp ha
  obtain ⟨j, hj, rfl⟩ := List.mem_iff_getElem.mp hb
  rcases Nat.lt_trichotomy i j with hij | rfl | hij
  · have := h.lt hi hj hij
    rw [cmpBytes_eq.mpr hab] at this; cases this
  · rfl
  · have := h.lt hj hi hij
    rw [cmpBytes_eq.mpr hab.symm] at this; cases this

theorem binarySearch_spec {t : List DateToken} (h : TableSorted t) (key : Bytes) :
    ∀ fuel left right, right ≤ t.length → right - left ≤ fuel →
      ∃ r, binarySearch t key fuel left right = .ok r ∧
        (∀ i, r = some i → ∃ hi : i < t.length, t[i].token = key) ∧
        (r = none → ∀ i (hi : i < t.length), left ≤ i → i < right → t[i].token ≠ key) := by
  intro fuel
  induction fuel with
  | zero =>
    intro left right hr hf
    refine ⟨none, rfl, by simp, ?_⟩
    intro _ i hi h1 h2; omega
  | succ n ih =>
    intro left right hr hf
    rw [binarySearch]
    by_cases hlr : left < right
    · rw [if_pos hlr]
      have hmid : left + (right - left) / 2 < t.length := by omega
      generalize hm : left + (right - left) / 2 = mid at hmid
      simp only [List.getElem?_eq_getElem hmid]
      cases hc : cmpBytes t[mid].token key with
      | lt =>
        obtain ⟨r, hr1, hr2, hr3⟩ := ih (mid + 1) right hr (by omega)
        refine ⟨r, hr1, hr2, ?_⟩
        intro hn i hi h1 h2 hk
        by_cases hle : mid + 1 ≤ i
        · exact hr3 hn i hi hle h2 hk
        · by_cases hie : i = mid
          · subst hie; rw [cmpBytes_eq.mpr hk] at hc; cases hc
          · have hlt := h.lt hi hmid (by omega)
            rw [hk] at hlt
            have := cmpBytes_swap.mpr hlt
            rw [hc] at this; cases this
      | gt =>
        obtain ⟨r, hr1, hr2, hr3⟩ := ih left mid (by omega) (by omega)
        refine ⟨r, hr1, hr2, ?_⟩
        intro hn i hi h1 h2 hk
        by_cases hle : i < mid
        · exact hr3 hn i hi h1 hle hk
        · by_cases hie : i = mid
          · subst hie; rw [cmpBytes_eq.mpr hk] at hc; cases hc
          · have hlt := h.lt hmid hi (by omega)
            rw [hk, hc] at hlt; cases hlt
      | eq =>
        refine ⟨some mid, rfl, ?_, by simp⟩
        intro i hi; cases hi
        exact ⟨hmid, cmpBytes_eq.mp hc⟩
    · rw [if_neg hlr]
      refine ⟨none, rfl, by simp, ?_⟩
      intro _ i hi h1 h2; omega

theorem cutKey_eq (w : Bytes) : cutKey w = w.take 10 := by
  rw [cutKey]
  split
  · rfl
  · rw [List.take_of_length_le (by omega)]

theorem tokenSearch_spec {t : List DateToken} (h : TableSorted t) (w : Bytes) :
    ∃ r, tokenSearch w t = .ok r ∧ ∀ e, r = some e ↔ e ∈ t ∧ e.token = w.take 10 := by
  obtain ⟨r, h1, h2, h3⟩ := binarySearch_spec h (cutKey w) t.length 0 t.length (Nat.le_refl _) (by omega)
  cases r with
  | none =>
    refine ⟨none, by rw [tokenSearch, h1]; rfl, ?_⟩
    intro e
    refine ⟨fun hh => (by cases hh), fun ⟨hm, hk⟩ => ?_⟩
    obtain ⟨i, hi, rfl⟩ := List.mem_iff_getElem.mp hm
    exact absurd (hk.trans (cutKey_eq w).symm) (h3 rfl i hi (by omega) hi)
  | some i =>
    obtain ⟨hi, hk⟩ := h2 i rfl
    refine ⟨some t[i], ?_, ?_⟩
    · rw [tokenSearch, h1]
      simp only [Res.bind_ok, List.getElem?_eq_getElem hi]
    · intro e
      constructor
      · intro he
        cases he
        exact ⟨List.getElem_mem hi, hk.trans (cutKey_eq w)⟩
      · rintro ⟨hm, he⟩
        congr 1
        exact h.inj (List.getElem_mem hi) hm (hk.trans ((cutKey_eq w).trans he.symm))

/-- The keyword of the table that a word denotes. -/
def lookupIn (t : List DateToken) (w : Bytes) : Option DateToken :=
  t.find? fun e => e.token == w.take 10

theorem lookupIn_some {t : List DateToken} (h : TableSorted t) (w : Bytes) (e : DateToken) :
    lookupIn t w = some e ↔ e ∈ t ∧ e.token = w.take 10 := by
  rw [lookupIn]
  constructor
  · intro hf
    exact ⟨List.mem_of_find?_eq_some hf, by simpa using List.find?_some hf⟩
  · rintro ⟨hm, he⟩
    cases hf : t.find? fun e => e.token == w.take 10 with
    | none =>
      have := List.find?_eq_none.mp hf e hm
      simp [he] at this
    | some e' =>
      have h1 := List.mem_of_find?_eq_some hf
      have h2 : e'.token = w.take 10 := by simpa using List.find?_some hf
      rw [h.inj h1 hm (h2.trans he.symm)]

theorem tokenSearch_eq {t : List DateToken} (h : TableSorted t) (w : Bytes) :
    tokenSearch w t = .ok (lookupIn t w) := by
  obtain ⟨r, h1, h2⟩ := tokenSearch_spec h w
  rw [h1]
  congr 1
  cases r with
  | none =>
    cases hl : lookupIn t w with
    | none => rfl
    | some e => exact ((h2 e).mpr ((lookupIn_some h w e).mp hl))
  | some e => exact ((lookupIn_some h w e).mpr ((h2 e).mp rfl)).symm

theorem searchDate_eq (w : Bytes) : searchDate w = .ok (lookupIn dateTable w) :=
  tokenSearch_eq dateTable_sorted w
theorem searchDelta_eq (w : Bytes) : searchDelta w = .ok (lookupIn deltaTable w) :=
  tokenSearch_eq deltaTable_sorted w

theorem lookupIn_cut (t : List DateToken) (w : Bytes) : lookupIn t (cutKey w) = lookupIn t w := by
  rw [lookupIn, lookupIn, cutKey_eq, List.take_take]; rfl

/-- Every stored keyword is an entry of the table, and there is one slot per field position. -/
def CacheOk (t : List DateToken) (c : List (Option DateToken)) : Prop :=
  c.length = 25 ∧ ∀ e, some e ∈ c → e ∈ t

theorem cacheOk_new (t : List DateToken) : CacheOk t (List.replicate 25 none) := by
  refine ⟨by simp, ?_⟩
  intro e he
  simp at he

theorem cachedSearch_spec {t : List DateToken} (h : TableSorted t) {c : List (Option DateToken)}
    (hc : CacheOk t c) {field : Nat} (hf : field < 25) (w : Bytes) :
    ∃ c', cachedSearch (fun k => tokenSearch k t) c field w = .ok (lookupIn t w, c') ∧
      CacheOk t c' := by
  have hlen : field < c.length := by rw [hc.1]; exact hf
  have key : cacheFind (fun k => tokenSearch k t) c[field] (cutKey w) = .ok (lookupIn t w) := by
    cases hcf : c[field] with
    | none =>
      show tokenSearch (cutKey w) t = _
      rw [tokenSearch_eq h, lookupIn_cut]
    | some e =>
      show (if cutKey w ≠ e.token then tokenSearch (cutKey w) t else .ok (some e)) = _
      by_cases hk : cutKey w = e.token
      · rw [if_neg (by simp [hk])]
        congr 1
        symm
        rw [lookupIn_some h]
        refine ⟨hc.2 e ?_, ?_⟩
        · rw [← hcf]; exact List.getElem_mem hlen
        · rw [← cutKey_eq, hk]
      · rw [if_pos hk, tokenSearch_eq h, lookupIn_cut]
  rw [cachedSearch]
  simp only [List.getElem?_eq_getElem hlen]
  rw [key, Res.bind_ok]
  cases hl : lookupIn t w with
  | none => exact ⟨c, rfl, hc⟩
  | some e =>
    refine ⟨c.set field (some e), rfl, by rw [List.length_set]; exact hc.1, ?_⟩
    intro e' he'
    rcases List.mem_or_eq_of_mem_set he' with hm | hm
    · exact hc.2 e' hm
    · cases hm; exact ((lookupIn_some h w e).mp hl).1

/-- Both caches hold table entries only. -/
def Caches.Ok (c : Caches) : Prop := CacheOk dateTable c.date ∧ CacheOk deltaTable c.delta

theorem Caches.ok_new : Caches.new.Ok := ⟨cacheOk_new _, cacheOk_new _⟩

theorem decodeSpecial_spec {c : Caches} (hc : c.Ok) {field : Nat} (hf : field < 25) (w : Bytes) :
    ∃ c', decodeSpecial c field w = .ok (tokenResult (lookupIn dateTable w), c') ∧ c'.Ok := by
  obtain ⟨d, h1, h2⟩ := cachedSearch_spec dateTable_sorted hc.1 hf w
  refine ⟨{ c with date := d }, ?_, h2, hc.2⟩
  have h1' : cachedSearch searchDate c.date field w = .ok (lookupIn dateTable w, d) := h1
  rw [decodeSpecial, h1']; rfl

theorem decodeUnits_spec {c : Caches} (hc : c.Ok) {field : Nat} (hf : field < 25) (w : Bytes) :
    ∃ c', decodeUnits c field w = .ok (tokenResult (lookupIn deltaTable w), c') ∧ c'.Ok := by
  obtain ⟨d, h1, h2⟩ := cachedSearch_spec deltaTable_sorted hc.2 hf w
  refine ⟨{ c with delta := d }, ?_, hc.1, h2⟩
  have h1' : cachedSearch searchDelta c.delta field w = .ok (lookupIn deltaTable w, d) := h1
  rw [decodeUnits, h1']; rfl

end Pg
