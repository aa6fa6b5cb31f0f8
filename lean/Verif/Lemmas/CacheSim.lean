import Verif.Lemmas.Token
import Verif.Lemmas.St

/-! # The keyword caches are invisible

Every decoder run with the caches gives the result of the same decoder run without them. -/

namespace Pg

/-- The computation with caches does what the one without does, whatever table entries are cached. -/
def Sim {σ α : Type} (m : St (σ × Caches) α) (m' : St (σ × Unit) α) : Prop :=
  ∀ s c, c.Ok → ∃ c', c'.Ok ∧ m (s, c) = ((m' (s, ())).1, ((m' (s, ())).2.1, c'))

namespace Sim
variable {σ τ α β : Type}

theorem noLook (m : St σ α) : Sim (Pg.noLook m) (Pg.noLook m) := fun _ c hc => ⟨c, hc, rfl⟩
theorem pure (a : α) : Sim (Pure.pure a : St (σ × Caches) α) (Pure.pure a) :=
  fun _ c hc => ⟨c, hc, rfl⟩
theorem fail (e : Err) : Sim (St.fail e : St (σ × Caches) α) (St.fail e) := fun _ c hc => ⟨c, hc, rfl⟩
theorem panic : Sim (St.panic : St (σ × Caches) α) St.panic := fun _ c hc => ⟨c, hc, rfl⟩
theorem lift (r : Res α) : Sim (St.lift r : St (σ × Caches) α) (St.lift r) :=
  fun _ c hc => ⟨c, hc, rfl⟩

theorem bind {m : St (σ × Caches) α} {m' : St (σ × Unit) α} {f : α → St (σ × Caches) β}
    {f' : α → St (σ × Unit) β} (h : Sim m m') (hf : ∀ a, m' = m' → Sim (f a) (f' a)) :
    Sim (m >>= f) (m' >>= f') := by
  intro s c hc
  obtain ⟨c1, hc1, e1⟩ := h s c hc
  rcases hm : m' (s, ()) with ⟨r, s1, u⟩
  rw [hm] at e1
  cases r with
  | ok a =>
    obtain ⟨c2, hc2, e2⟩ := hf a rfl s1 c1 hc1
    refine ⟨c2, hc2, ?_⟩
    rw [St.bind_ok e1, St.bind_ok hm]
    exact e2
  | err e => exact ⟨c1, hc1, by rw [St.bind_err e1, St.bind_err hm]⟩
  | panic => exact ⟨c1, hc1, by rw [St.bind_panic e1, St.bind_panic hm]⟩

/-- Sequencing when only the results that can occur matter. -/
theorem bind_of {m : St (σ × Caches) α} {m' : St (σ × Unit) α} {f : α → St (σ × Caches) β}
    {f' : α → St (σ × Unit) β} (h : Sim m m')
    (hf : ∀ a s s', m' s = (.ok a, s') → Sim (f a) (f' a)) :
    Sim (m >>= f) (m' >>= f') := by
  intro s c hc
  obtain ⟨c1, hc1, e1⟩ := h s c hc
  rcases hm : m' (s, ()) with ⟨r, s1, u⟩
  rw [hm] at e1
  cases r with
  | ok a =>
    obtain ⟨c2, hc2, e2⟩ := hf a _ _ hm s1 c1 hc1
    refine ⟨c2, hc2, ?_⟩
    rw [St.bind_ok e1, St.bind_ok hm]
    exact e2
  | err e => exact ⟨c1, hc1, by rw [St.bind_err e1, St.bind_err hm]⟩
  | panic => exact ⟨c1, hc1, by rw [St.bind_panic e1, St.bind_panic hm]⟩

theorem ite {p : Prop} [Decidable p] {a b : St (σ × Caches) α} {a' b' : St (σ × Unit) α}
    (h1 : p → Sim a a') (h2 : ¬ p → Sim b b') : Sim (if p then a else b) (if p then a' else b') := by
  by_cases hp : p
  · rw [if_pos hp, if_pos hp]; exact h1 hp
  · rw [if_neg hp, if_neg hp]; exact h2 hp

theorem zoomFst {g : σ → τ} {h : τ → σ → σ} {m : St (τ × Caches) α} {m' : St (τ × Unit) α}
    (hm : Sim m m') :
    Sim (St.zoom (fun s : σ × Caches => (g s.1, s.2)) (fun t s => (h t.1 s.1, t.2)) m)
      (St.zoom (fun s : σ × Unit => (g s.1, s.2)) (fun t s => (h t.1 s.1, t.2)) m') := by
  intro s c hc
  obtain ⟨c', hc', e⟩ := hm (g s) c hc
  refine ⟨c', hc', ?_⟩
  simp only [St.zoom, e]

theorem lookDate {i : Nat} (hi : i < 25) (w : Bytes) :
    Sim (σ := σ) (Pg.lookDate cachedLook i w) (Pg.lookDate plainLook i w) := by
  intro s c hc
  obtain ⟨c', h1, h2⟩ := decodeSpecial_spec hc hi w
  refine ⟨c', h2, ?_⟩
  simp only [Pg.lookDate, cachedLook, plainLook, h1, searchDate_eq]

theorem lookDelta {i : Nat} (hi : i < 25) (w : Bytes) :
    Sim (σ := σ) (Pg.lookDelta cachedLook i w) (Pg.lookDelta plainLook i w) := by
  intro s c hc
  obtain ⟨c', h1, h2⟩ := decodeUnits_spec hc hi w
  refine ⟨c', h2, ?_⟩
  simp only [Pg.lookDelta, cachedLook, plainLook, h1, searchDelta_eq]

end Sim

theorem dateSplit_length {fuel : Nat} {s : Bytes} {nf : Nat} {l : List Bytes}
    (h : dateSplit fuel s nf = .ok l) : l.length ≤ 25 - nf := by
  induction fuel generalizing s nf l with
  | zero => rw [dateSplit] at h; cases h; simp
  | succ n ih =>
    rw [dateSplit] at h
    split at h
    · cases h; simp
    · rename_i hc
      split at h
      · cases h
      · split at h
        · obtain ⟨l', h1, h2⟩ := Res.bind_eq_ok.mp h
          cases h2
          have := ih h1
          simp only [List.length_cons]
          omega
        · obtain ⟨l', h1, h2⟩ := Res.bind_eq_ok.mp h
          cases h2
          have := ih h1
          simp only [List.length_cons]
          omega

theorem sim_textPass (fs : List Bytes) (i : Nat) (h : i + fs.length ≤ 25) :
    Sim (textPass cachedLook fs i) (textPass plainLook fs i) := by
  induction fs generalizing i with
  | nil => exact Sim.pure _
  | cons f fs ih =>
    have hl : i < 25 := by simp only [List.length_cons] at h; omega
    have hr : i + 1 + fs.length ≤ 25 := by simp only [List.length_cons] at h; omega
    rw [textPass, textPass]
    refine Sim.ite (fun _ => ?_) (fun _ => ?_)
    · refine Sim.bind (Sim.lookDate hl f) fun a _ => ?_
      refine Sim.ite (fun _ => ?_) (fun _ => Sim.ite (fun _ => ?_) (fun _ => Sim.fail _))
      · exact Sim.bind (ih _ hr) fun _ _ => Sim.pure _
      · refine Sim.bind (Sim.noLook _) fun _ _ => Sim.bind (Sim.noLook _) fun _ _ => ?_
        refine Sim.ite (fun _ => Sim.fail _) (fun _ => ?_)
        exact Sim.bind (Sim.noLook _) fun _ _ => Sim.bind (ih _ hr) fun _ _ => Sim.pure _
    · exact Sim.bind (ih _ hr) fun _ _ => Sim.pure _

theorem sim_decodeDate (str : Bytes) (order : DateOrder) :
    Sim (decodeDate cachedLook str order) (decodeDate plainLook str order) := by
  refine Sim.zoomFst (g := fun s : Dec => ({ tm := s.tm, is2 := s.is2, fMask := s.fMask } : DateS))
    (h := fun t s => { s with tm := t.tm, is2 := t.is2, tMask := t.tMask }) ?_
  refine Sim.bind_of (Sim.lift _) fun l s s' hl => ?_
  have hlen : l.length ≤ 25 := by
    have : dateSplit (str.length + 1) str 0 = .ok l := (Prod.mk.inj hl).1
    simpa using dateSplit_length this
  refine Sim.bind (sim_textPass l 0 (by omega)) fun _ _ => ?_
  refine Sim.bind (Sim.noLook _) fun _ _ => Sim.bind (Sim.noLook _) fun _ _ => ?_
  exact Sim.ite (fun _ => Sim.fail _) (fun _ => Sim.pure _)

theorem sim_dateToken (p : Profile) (field : Bytes) (order : DateOrder) :
    Sim (dateToken p cachedLook field order) (dateToken p plainLook field order) := by
  refine Sim.bind (Sim.noLook _) fun d _ => ?_
  refine Sim.ite (fun _ => ?_) (fun _ => Sim.ite (fun _ => ?_) (fun _ => sim_decodeDate _ _))
  · refine Sim.bind (Sim.lift _) fun _ _ => Sim.bind (Sim.lift _) fun _ _ => ?_
    exact Sim.bind (Sim.noLook _) fun _ _ => Sim.fail _
  · cases field with
    | nil => exact Sim.pure _
    | cons c r =>
      exact Sim.ite (fun _ => Sim.ite (fun _ => Sim.fail _) (fun _ => Sim.pure _)) (fun _ => Sim.fail _)

theorem sim_numberToken (p : Profile) (str : Bytes) (order : DateOrder) :
    Sim (numberToken p cachedLook str order) (numberToken p plainLook str order) := by
  refine Sim.bind (Sim.noLook _) fun d _ => ?_
  refine Sim.ite (fun _ => Sim.noLook _) (fun _ => ?_)
  refine Sim.ite (fun _ => sim_decodeDate _ _) (fun _ => ?_)
  refine Sim.ite (fun _ => Sim.bind (Sim.noLook _) fun _ _ => Sim.pure _) (fun _ => ?_)
  exact Sim.ite (fun _ => Sim.bind (Sim.noLook _) fun _ _ => Sim.pure _) (fun _ => Sim.noLook _)

theorem sim_wordToken (ftypes : List TokenField) {i : Nat} (hi : i < 25) (field : Bytes) :
    Sim (wordToken cachedLook ftypes i field) (wordToken plainLook ftypes i field) := by
  refine Sim.bind (Sim.lookDate hi _) fun d _ => ?_
  exact Sim.ite (fun _ => Sim.pure _) (fun _ => Sim.bind (Sim.noLook _) fun _ _ => Sim.pure _)

theorem sim_dateTimeField (p : Profile) (order : DateOrder) (ftypes : List TokenField) {i : Nat}
    (hi : i < 25) (f : Field) :
    Sim (dateTimeField p cachedLook order ftypes i f) (dateTimeField p plainLook order ftypes i f) := by
  unfold dateTimeField
  split
  · exact Sim.bind (sim_dateToken _ _ _) fun _ _ => Sim.noLook _
  · exact Sim.bind (Sim.noLook _) fun _ _ => Sim.noLook _
  · exact Sim.bind (sim_numberToken _ _ _) fun _ _ => Sim.noLook _
  · refine Sim.bind (sim_wordToken _ hi _) fun b _ => ?_
    exact Sim.ite (fun _ => Sim.pure _) (fun _ => Sim.noLook _)
  · refine Sim.bind (sim_wordToken _ hi _) fun b _ => ?_
    exact Sim.ite (fun _ => Sim.pure _) (fun _ => Sim.noLook _)
  · exact Sim.fail _

theorem sim_dateTimeLoop (p : Profile) (order : DateOrder) (ftypes : List TokenField)
    (fs : List Field) (i : Nat) (h : i + fs.length ≤ 25) :
    Sim (dateTimeLoop p cachedLook order ftypes fs i) (dateTimeLoop p plainLook order ftypes fs i) := by
  induction fs generalizing i with
  | nil => exact Sim.pure _
  | cons f fs ih =>
    simp only [List.length_cons] at h
    exact Sim.bind (sim_dateTimeField p order ftypes (by omega) f) fun _ _ => ih _ (by omega)

theorem sim_decodeDateTime (p : Profile) (order : DateOrder) (fs : List Field) (h : fs.length ≤ 25) :
    Sim (decodeDateTime p cachedLook order fs) (decodeDateTime p plainLook order fs) := by
  refine Sim.bind (sim_dateTimeLoop p order _ fs 0 (by omega)) fun _ _ => ?_
  refine Sim.bind (Sim.noLook _) fun _ _ => Sim.bind (Sim.noLook _) fun _ _ => ?_
  exact Sim.ite (fun _ => Sim.fail _) (fun _ => Sim.pure _)

theorem sim_dateTokenT (order : DateOrder) (ftypes : List TokenField) (i : Nat) (field : Bytes) :
    Sim (dateTokenT cachedLook order ftypes i field) (dateTokenT plainLook order ftypes i field) :=
  Sim.ite (fun _ => sim_decodeDate _ _) (fun _ => Sim.fail _)

theorem sim_numberTokenT (p : Profile) (order : DateOrder) (ftypes : List TokenField) (i : Nat)
    (str : Bytes) :
    Sim (numberTokenT p cachedLook order ftypes i str) (numberTokenT p plainLook order ftypes i str) := by
  refine Sim.bind (Sim.noLook _) fun d _ => ?_
  refine Sim.ite (fun _ => Sim.noLook _) (fun _ => Sim.ite (fun _ => ?_) (fun _ => ?_))
  · refine Sim.ite (fun _ => sim_decodeDate _ _) (fun _ => ?_)
    exact Sim.ite (fun _ => Sim.bind (Sim.noLook _) fun _ _ => Sim.pure _) (fun _ => Sim.fail _)
  · exact Sim.ite (fun _ => Sim.bind (Sim.noLook _) fun _ _ => Sim.pure _) (fun _ => Sim.noLook _)

theorem sim_wordTokenT (ftypes : List TokenField) {i : Nat} (hi : i < 25) (field : Bytes) :
    Sim (wordTokenT cachedLook ftypes i field) (wordTokenT plainLook ftypes i field) := by
  refine Sim.bind (Sim.lookDate hi _) fun d _ => ?_
  exact Sim.ite (fun _ => Sim.pure _) (fun _ => Sim.bind (Sim.noLook _) fun _ _ => Sim.pure _)

theorem sim_timeOnlyField (p : Profile) (order : DateOrder) (ftypes : List TokenField) {i : Nat}
    (hi : i < 25) (f : Field) :
    Sim (timeOnlyField p cachedLook order ftypes i f) (timeOnlyField p plainLook order ftypes i f) := by
  unfold timeOnlyField
  split
  · exact Sim.bind (sim_dateTokenT _ _ _ _) fun _ _ => Sim.noLook _
  · exact Sim.bind (Sim.noLook _) fun _ _ => Sim.noLook _
  · exact Sim.bind (sim_numberTokenT _ _ _ _ _) fun _ _ => Sim.noLook _
  · refine Sim.bind (sim_wordTokenT _ hi _) fun b _ => ?_
    exact Sim.ite (fun _ => Sim.pure _) (fun _ => Sim.noLook _)
  · refine Sim.bind (sim_wordTokenT _ hi _) fun b _ => ?_
    exact Sim.ite (fun _ => Sim.pure _) (fun _ => Sim.noLook _)
  · exact Sim.fail _

theorem sim_timeOnlyLoop (p : Profile) (order : DateOrder) (ftypes : List TokenField)
    (fs : List Field) (i : Nat) (h : i + fs.length ≤ 25) :
    Sim (timeOnlyLoop p cachedLook order ftypes fs i) (timeOnlyLoop p plainLook order ftypes fs i) := by
  induction fs generalizing i with
  | nil => exact Sim.pure _
  | cons f fs ih =>
    simp only [List.length_cons] at h
    exact Sim.bind (sim_timeOnlyField p order ftypes (by omega) f) fun _ _ => ih _ (by omega)

theorem sim_decodeTimeOnly (p : Profile) (order : DateOrder) (fs : List Field) (h : fs.length ≤ 25) :
    Sim (decodeTimeOnly p cachedLook order fs) (decodeTimeOnly p plainLook order fs) := by
  refine Sim.bind (sim_timeOnlyLoop p order _ fs 0 (by omega)) fun _ _ => ?_
  refine Sim.bind (Sim.noLook _) fun _ _ => Sim.bind (Sim.noLook _) fun _ _ => ?_
  exact Sim.ite (fun _ => Sim.fail _) (fun _ => Sim.pure _)

theorem sim_intervalField (p : Profile) (range : Nat) {i : Nat} (hi : i < 25) (f : Field) :
    Sim (intervalField p cachedLook range i f) (intervalField p plainLook range i f) := by
  unfold intervalField
  split
  · exact Sim.noLook _
  · exact Sim.noLook _
  · exact Sim.noLook _
  · exact Sim.noLook _
  · refine Sim.bind (Sim.lookDelta hi _) fun b _ => ?_
    exact Sim.ite (fun _ => Sim.pure _) (fun _ => Sim.noLook _)
  · refine Sim.bind (Sim.lookDelta hi _) fun b _ => ?_
    exact Sim.ite (fun _ => Sim.pure _) (fun _ => Sim.noLook _)
  · exact Sim.fail _

theorem sim_intervalLoop (p : Profile) (range : Nat) (fs : List Field) (i : Nat)
    (h : i + fs.length ≤ 25) :
    Sim (intervalLoop p cachedLook range fs i) (intervalLoop p plainLook range fs i) := by
  induction fs generalizing i with
  | nil => exact Sim.pure _
  | cons f fs ih =>
    simp only [List.length_cons] at h
    exact Sim.bind (ih _ (by omega)) fun _ _ => sim_intervalField p range (by omega) f

theorem sim_decodeInterval (p : Profile) (range : Nat) (style : IntervalStyle) (fs : List Field)
    (h : fs.length ≤ 25) :
    Sim (decodeInterval p cachedLook range style fs) (decodeInterval p plainLook range style fs) :=
  Sim.bind (sim_intervalLoop p range fs 0 (by omega)) fun _ _ => Sim.noLook _

theorem sim_orElse {σ α : Type} {m h : St (σ × Caches) α} {m' h' : St (σ × Unit) α} (hm : Sim m m')
    (hh : Sim h h') : Sim (St.orElse m h) (St.orElse m' h') := by
  intro s c hc
  obtain ⟨c1, hc1, e1⟩ := hm s c hc
  rcases hm' : m' (s, ()) with ⟨r, s1, u⟩
  rw [hm'] at e1
  rcases r with a | e | _
  · exact ⟨c1, hc1, by simp only [St.orElse, e1, hm']⟩
  · cases e
    · exact ⟨c1, hc1, by simp only [St.orElse, e1, hm']⟩
    · obtain ⟨c2, hc2, e2⟩ := hh s1 c1 hc1
      exact ⟨c2, hc2, by simp only [St.orElse, e1, hm', e2]⟩
    · exact ⟨c1, hc1, by simp only [St.orElse, e1, hm']⟩
  · exact ⟨c1, hc1, by simp only [St.orElse, e1, hm']⟩

theorem scanLoop_length {u : TokenField} {fuel : Nat} {s : Bytes} {cap nf : Nat} {l : List Field}
    (h : scanLoop u fuel s cap nf = .ok l) : l.length ≤ 25 - nf := by
  induction fuel generalizing s cap nf l with
  | zero => rw [scanLoop] at h; cases h; simp
  | succ n ih =>
    rw [scanLoop] at h
    split at h
    · cases h; simp
    · split at h
      · cases h
      · split at h
        · split at h
          · cases h
          · obtain ⟨f, h1, h2⟩ := Res.bind_eq_ok.mp h
            simp only at h2
            split at h2
            · cases h2
            · obtain ⟨l', h3, h4⟩ := Res.bind_eq_ok.mp h2
              cases h4
              have := ih h3
              simp only [List.length_cons]
              omega
        · split at h
          · exact ih h
          · cases h

theorem scan_length {u : TokenField} {s : Bytes} {l : List Field} (h : scan u s = .ok l) :
    l.length ≤ 25 := by
  rw [scan] at h
  split at h
  · cases h
  · simpa using scanLoop_length h

/-- A computation whose state is only the caches: same result as without caches. -/
def Same {α : Type} (m : St Caches α) (m' : St Unit α) : Prop :=
  ∀ c, c.Ok → (m c).1 = (m' ()).1 ∧ (m c).2.Ok

theorem same_parse {σ α β : Type} {u : TokenField} {s : Bytes} {init : σ}
    {m : List Field → St (σ × Caches) α} {m' : List Field → St (σ × Unit) α}
    {f : α × σ → St Caches β} {f' : α × σ → St Unit β}
    (h : ∀ l, l.length ≤ 25 → Sim (m l) (m' l)) (hf : ∀ a, Same (f a) (f' a)) :
    Same (do let l ← St.lift (scan u s); let r ← runLocal init (m l); f r)
      (do let l ← St.lift (scan u s); let r ← runLocal init (m' l); f' r) := by
  intro c hc
  cases hs : scan u s with
  | err e => exact ⟨rfl, hc⟩
  | panic => exact ⟨rfl, hc⟩
  | ok l =>
    rw [St.lift_ok_bind, St.lift_ok_bind]
    obtain ⟨c1, hc1, e1⟩ := h l (scan_length hs) init c hc
    rcases hm : m' l (init, ()) with ⟨r, s1, w⟩
    rw [hm] at e1
    rcases r with a | e | _
    · have h1 : runLocal init (m l) c = (.ok (a, s1), c1) := by simp only [runLocal, e1]
      have h2 : runLocal init (m' l) () = (.ok (a, s1), ()) := by simp only [runLocal, hm]
      rw [St.bind_ok h1, St.bind_ok h2]
      exact hf _ c1 hc1
    · have h1 : runLocal init (m l) c = (.err e, c1) := by simp only [runLocal, e1]
      have h2 : runLocal init (m' l) () = (.err e, ()) := by simp only [runLocal, hm]
      rw [St.bind_err h1, St.bind_err h2]
      exact ⟨rfl, hc1⟩
    · have h1 : runLocal init (m l) c = (.panic, c1) := by simp only [runLocal, e1]
      have h2 : runLocal init (m' l) () = (.panic, ()) := by simp only [runLocal, hm]
      rw [St.bind_panic h1, St.bind_panic h2]
      exact ⟨rfl, hc1⟩

theorem same_lift {α : Type} (r : Res α) : Same (St.lift r) (St.lift r) := fun _ hc => ⟨rfl, hc⟩

theorem same_date (p : Profile) (u : TokenField) (order : DateOrder) (s : Bytes) :
    Same (Date.tryFromStrW p cachedLook u order s) (Date.tryFromStrW p plainLook u order s) :=
  same_parse (fun l hl => sim_decodeDateTime p order l hl) fun _ => same_lift _

theorem same_lift2 {α β : Type} (r : Res α) (f : α → Res β) :
    Same (do let a ← St.lift r; St.lift (f a)) (do let a ← St.lift r; St.lift (f a)) := by
  intro c hc
  cases r <;> exact ⟨rfl, hc⟩

theorem same_timestamp (p : Profile) (u : TokenField) (typmod : Int) (order : DateOrder) (s : Bytes) :
    Same (Timestamp.tryFromStrW p cachedLook u typmod order s)
      (Timestamp.tryFromStrW p plainLook u typmod order s) :=
  same_parse (fun l hl => sim_decodeDateTime p order l hl) fun _ => same_lift2 _ _

theorem same_time (p : Profile) (u : TokenField) (typmod : Int) (order : DateOrder) (s : Bytes) :
    Same (Time.tryFromStrW p cachedLook u typmod order s)
      (Time.tryFromStrW p plainLook u typmod order s) :=
  same_parse (fun l hl => sim_decodeTimeOnly p order l hl) fun _ => same_lift2 _ _

theorem same_interval (p : Profile) (u : TokenField) (typmod : Int) (style : IntervalStyle)
    (s : Bytes) :
    Same (Interval.tryFromStrW p cachedLook u typmod style s)
      (Interval.tryFromStrW p plainLook u typmod style s) :=
  same_parse (fun l hl => sim_orElse (sim_decodeInterval p _ style l hl) (Sim.noLook _))
    fun _ => same_lift _

end Pg
