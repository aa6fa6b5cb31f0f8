import Verif.Props.Agree

/-!
# Property C84: what the interval style decides on input

`c` is the state of the thread's keyword caches, `u` the uninitialised type of a lone sign.
-/

namespace Pg
open Spec

/-- The end of `decode_interval`, from the rule for signs. -/
def ivTail (p : Profile) (style : IntervalStyle) (l : List Field) : St IvS Unit := do
  onTm (sqlSign style l)
  let s ← St.get
  if s.before then onTm (negateAll p) else pure ()

/-- What comes before it does not depend on the style. -/
theorem decodeInterval_tail (p : Profile) (range : Nat) (l : List Field) :
    (∃ r s, (∀ style, decodeInterval p plainLook range style l ({}, ()) = (r, s)) ∧ r ≠ .ok ()) ∨
    ∃ s : IvS, ∀ style, decodeInterval p plainLook range style l ({}, ()) = (((ivTail p style l) s).1, (((ivTail p style l) s).2, ())) := by
  unfold decodeInterval
  rcases hL : intervalLoop p plainLook range l 0 ({}, ()) with ⟨r, s, w⟩
  cases r with
  | err e => exact Or.inl ⟨.err e, (s, w), fun _ => St.bind_err hL, by simp⟩
  | panic => exact Or.inl ⟨.panic, (s, w), fun _ => St.bind_panic hL, by simp⟩
  | ok a =>
    by_cases hm : s.fMask = 0
    · left
      refine ⟨.err .invalid, (s, w), fun _ => ?_, by simp⟩
      rw [St.bind_ok hL]
      refine noLook_run ?_
      rw [St.get_bind, if_pos hm]; rfl
    · rcases hC : onTm (carryFsec p) s with ⟨r, t⟩
      cases r with
      | err e =>
        refine Or.inl ⟨.err e, (t, w), fun _ => ?_, by simp⟩
        rw [St.bind_ok hL]
        refine noLook_run ?_
        rw [St.get_bind, if_neg hm, St.bind_err hC]
      | panic =>
        refine Or.inl ⟨.panic, (t, w), fun _ => ?_, by simp⟩
        rw [St.bind_ok hL]
        refine noLook_run ?_
        rw [St.get_bind, if_neg hm, St.bind_panic hC]
      | ok a =>
        refine Or.inr ⟨t, fun style => ?_⟩
        rw [St.bind_ok hL]
        refine noLook_run ?_
        rw [St.get_bind, if_neg hm, St.bind_ok hC]
        rfl


/-- Two styles other than SQL. -/
theorem ivTail_other (p : Profile) {s1 s2 : IntervalStyle} (h1 : s1 ≠ .sqlStandard) (h2 : s2 ≠ .sqlStandard) (l : List Field) :
    ivTail p s1 l = ivTail p s2 l := by
  have : sqlSign s1 l = sqlSign s2 l := by
    cases l with
    | nil => rfl
    | cons f l => funext s; rw [sqlSign_other h1 (by simp), sqlSign_other h2 (by simp)]
  unfold ivTail
  rw [this]

theorem ivTail_noMinus (p : Profile) {l : List Field} (h : ∀ f ∈ l, f.2 ≠ [] ∧ f.2.head? ≠ some 45) (s1 s2 : IntervalStyle) :
    ivTail p s1 l = ivTail p s2 l := by
  have key : ∀ st, sqlSign st l = sqlSign .postgres l := by
    intro st
    cases l with
    | nil => rfl
    | cons f l =>
      funext s
      rw [sqlSign_other (style := .postgres) (by decide) (by simp)]
      by_cases hst : st = .sqlStandard
      · rw [hst, sqlSign_plain (h f (by simp)).1 (h f (by simp)).2]
      · rw [sqlSign_other hst (by simp)]
  unfold ivTail
  rw [key s1, key s2]

/-- All parts of the broken-down interval have the sign `k`. -/
def TmSigned (k : Int) (s : TmF) : Prop :=
  0 ≤ k * s.1.year ∧ 0 ≤ k * s.1.mon ∧ 0 ≤ k * s.1.mday ∧ 0 ≤ k * s.1.hour ∧ 0 ≤ k * s.1.min ∧ 0 ≤ k * s.1.sec ∧ 0 ≤ k * s.2

theorem negPos_neg (x : Int) : 0 ≤ -1 * negPos x := by unfold negPos; split <;> omega

theorem forced_signed (s : TmF) : TmSigned (-1) (forceNegative s) :=
  ⟨negPos_neg _, negPos_neg _, negPos_neg _, negPos_neg _, negPos_neg _, negPos_neg _, negPos_neg _⟩

theorem chk32_debug {x y : Int} (h : chk32 .debug x = .ok y) : y = x := by
  unfold chk32 at h
  split at h <;> cases h
  rfl

theorem chk64_debug {x y : Int} (h : chk64 .debug x = .ok y) : y = x := by
  unfold chk64 at h
  split at h <;> cases h
  rfl

theorem negate_signed {s : TmF} (h : TmSigned (-1) s) : Post (negateAll .debug) (fun _ s' => TmSigned 1 s') s := by
  unfold negateAll
  wp
  intro a ha b hb c hc d hd e he f hf g hg
  rw [chk64_debug ha, chk32_debug hb, chk32_debug hc, chk32_debug hd, chk32_debug he, chk32_debug hf, chk32_debug hg]
  unfold TmSigned at h ⊢
  dsimp only
  omega

theorem sqlSign_cases (f : Field) (l : List Field) (t : TmF) : sqlSign .sqlStandard (f :: l) t = (.ok (), t) ∨
    sqlSign .sqlStandard (f :: l) t = (.ok (), forceNegative t) ∨ sqlSign .sqlStandard (f :: l) t = (.panic, t) := by
  unfold sqlSign
  simp only [if_true]
  cases f.2 with
  | nil => exact Or.inr (Or.inr rfl)
  | cons b r =>
    simp only [St.ite_run]
    split
    · exact Or.inr (Or.inl rfl)
    · exact Or.inl rfl

theorem chk32_noErr (x : Int) : chk32 .debug x = .ok x ∨ chk32 .debug x = .panic := by unfold chk32; split <;> simp

theorem chk64_noErr (x : Int) : chk64 .debug x = .ok x ∨ chk64 .debug x = .panic := by unfold chk64; split <;> simp

/-- A step that reports no error. -/
def NoErr {σ α : Type} (m : St σ α) : Prop := ∀ s e, (m s).1 ≠ .err e

theorem NoErr.bind {σ α β : Type} {m : St σ α} {f : α → St σ β} (h : NoErr m) (hf : ∀ a, NoErr (f a)) : NoErr (m >>= f) := by
  intro s e
  rcases hm : m s with ⟨r, s'⟩
  cases r with
  | ok a => rw [St.bind_ok hm]; exact hf a s' e
  | panic => rw [St.bind_panic hm]; simp
  | err e' => exact absurd (congrArg Prod.fst hm) (h s e')

theorem NoErr.get {σ : Type} : NoErr (St.get : St σ σ) := fun _ _ h => by cases h
theorem NoErr.mod {σ : Type} (g : σ → σ) : NoErr (St.mod g) := fun _ _ h => by cases h
theorem NoErr.pure {σ α : Type} (a : α) : NoErr (pure a : St σ α) := fun _ _ h => by cases h
theorem NoErr.chk32 {σ : Type} (x : Int) : NoErr (St.lift (Pg.chk32 .debug x) : St σ Int) := by
  intro s e h; rw [St.lift_run] at h; rcases chk32_noErr x with k | k <;> rw [k] at h <;> cases h
theorem NoErr.chk64 {σ : Type} (x : Int) : NoErr (St.lift (Pg.chk64 .debug x) : St σ Int) := by
  intro s e h; rw [St.lift_run] at h; rcases chk64_noErr x with k | k <;> rw [k] at h <;> cases h
theorem NoErr.onTm {α : Type} {m : St TmF α} (h : NoErr m) : NoErr (Pg.onTm m) := by
  intro s e
  rcases hm : m s.t with ⟨r, t⟩
  rw [show Pg.onTm m s = (r, { s with t := t }) from St.zoom_run hm]
  exact fun k => h s.t e ((congrArg Prod.fst hm).trans k)

theorem NoErr.negateAll : NoErr (Pg.negateAll .debug) :=
  .bind .get fun _ => .bind (.chk64 _) fun _ => .bind (.chk32 _) fun _ => .bind (.chk32 _) fun _ => .bind (.chk32 _) fun _ =>
    .bind (.chk32 _) fun _ => .bind (.chk32 _) fun _ => .bind (.chk32 _) fun _ => .mod _

theorem NoErr.sqlSign (style : IntervalStyle) (l : List Field) : NoErr (Pg.sqlSign style l) := by
  intro t e h
  cases l with
  | nil => cases h
  | cons f l =>
    by_cases hst : style = .sqlStandard
    · rw [hst] at h
      rcases sqlSign_cases f l t with k | k | k <;> rw [k] at h <;> cases h
    · rw [sqlSign_other hst (by simp)] at h; cases h

/-- The end of the decoder reports no error in a debug build. -/
theorem ivTail_noErr (style : IntervalStyle) (l : List Field) : NoErr (ivTail .debug style l) := by
  refine .bind (.onTm (.sqlSign _ _)) fun _ => .bind .get fun s => ?_
  split
  · exact .onTm .negateAll
  · exact .pure _

/-- With the SQL style the end of the decoder does the same as with the others, or all parts get one sign. -/
theorem ivTail_sql (l : List Field) (s s' : IvS) (h : ivTail .debug .sqlStandard l s = (.ok (), s')) :
    (∀ style, style ≠ .sqlStandard → ivTail .debug style l s = (.ok (), s')) ∨ TmSigned (-1) s'.t ∨ TmSigned 1 s'.t := by
  cases l with
  | nil =>
    have e : onTm (sqlSign .sqlStandard []) s = (.panic, s) := rfl
    unfold ivTail at h
    rw [St.bind_panic e] at h
    cases h
  | cons f l =>
    have hs : sqlSign .sqlStandard (f :: l) s.t = (.ok (), s.t) ∨ sqlSign .sqlStandard (f :: l) s.t = (.ok (), forceNegative s.t) ∨
        sqlSign .sqlStandard (f :: l) s.t = (.panic, s.t) := by
      exact sqlSign_cases f l s.t
    unfold ivTail at h
    rcases hs with hs | hs | hs
    · left
      intro style hst
      have e1 : onTm (sqlSign .sqlStandard (f :: l)) s = (.ok (), s) := St.zoom_run hs
      have e2 : onTm (sqlSign style (f :: l)) s = (.ok (), s) := St.zoom_run (sqlSign_other hst (by simp) s.t)
      rw [St.bind_ok e1] at h
      unfold ivTail
      rw [St.bind_ok e2]
      exact h
    · right
      have e1 : onTm (sqlSign .sqlStandard (f :: l)) s = (.ok (), { s with t := forceNegative s.t }) := St.zoom_run hs
      rw [St.bind_ok e1, St.get_bind, St.ite_run] at h
      split at h
      · right
        have : Post (onTm (negateAll .debug)) (fun _ s' => TmSigned 1 s'.t) { s with t := forceNegative s.t } := by
          unfold onTm
          rw [Post.zoom]
          exact negate_signed (forced_signed s.t)
        exact this _ _ h
      · cases h; exact Or.inl (forced_signed s.t)
    · have e1 : onTm (sqlSign .sqlStandard (f :: l)) s = (.panic, s) := St.zoom_run hs
      rw [St.bind_panic e1] at h
      cases h

theorem either_ok {α : Type} {c : Prop} [Decidable c] {x y : Res α} {b : α} (h : (if c then x else y) = .ok b) : x = .ok b ∨ y = .ok b := by
  split at h
  · exact .inl h
  · exact .inr h

theorem adjustRange_signed {k : Int} (hk : k = 1 ∨ k = -1) {a v : Interval} {range : Nat} (h : 0 ≤ k * a.month ∧ 0 ≤ k * a.day ∧ 0 ≤ k * a.time)
    (e : a.adjustRange range = .ok v) : 0 ≤ k * v.month ∧ 0 ≤ k * v.day ∧ 0 ≤ k * v.time := by
  have t1 := tdiv_or a.month 12
  have t2 := tdiv_or a.time 3600000000
  have t3 := tdiv_or a.time 60000000
  have b1 : 0 ≤ k * (Int.tdiv a.month 12 * 12) := by rcases hk with rfl | rfl <;> omega
  have b2 : 0 ≤ k * (Int.tdiv a.time 3600000000 * 3600000000) := by rcases hk with rfl | rfl <;> omega
  have b3 : 0 ≤ k * (Int.tdiv a.time 60000000 * 60000000) := by rcases hk with rfl | rfl <;> omega
  obtain ⟨h1, h2, h3⟩ := h
  have hz : 0 ≤ k * 0 := by simp
  unfold Interval.adjustRange at e
  rcases either_ok e with e | e
  · cases e; exact ⟨h1, h2, h3⟩
  rcases either_ok e with e | e
  · cases e; exact ⟨b1, hz, hz⟩
  rcases either_ok e with e | e
  · cases e; exact ⟨h1, hz, hz⟩
  rcases either_ok e with e | e
  · cases e; exact ⟨h1, h2, hz⟩
  rcases either_ok e with e | e
  · cases e; exact ⟨h1, h2, b2⟩
  rcases either_ok e with e | e
  · cases e; exact ⟨h1, h2, b3⟩
  rcases either_ok e with e | e
  · cases e; exact ⟨h1, h2, h3⟩
  rcases either_ok e with e | e
  · cases e; exact ⟨h1, h2, b2⟩
  rcases either_ok e with e | e
  · cases e; exact ⟨h1, h2, b3⟩
  rcases either_ok e with e | e
  · cases e; exact ⟨h1, h2, h3⟩
  rcases either_ok e with e | e
  · cases e; exact ⟨h1, h2, b3⟩
  rcases either_ok e with e | e
  · cases e; exact ⟨h1, h2, h3⟩
  cases e

theorem roundScale_signed {k : Int} (hk : k = 1 ∨ k = -1) {v w s o : Int} (hs : 0 < s) (ho : 0 ≤ o) (ho' : o < s) (h : 0 ≤ k * v)
    (e : Interval.roundScale .debug v s o = .ok w) : 0 ≤ k * w := by
  unfold Interval.roundScale at e
  split at e
  · rename_i hv
    obtain ⟨a, h1, e⟩ := Res.bind_eq_ok.1 e
    have h1 := chk64_debug h1
    have e := chk64_debug e
    rcases hk with rfl | rfl
    · have : 0 ≤ Int.tdiv a s * s := Int.mul_nonneg (Int.tdiv_nonneg (by omega) (by omega)) (by omega)
      omega
    · have : Int.tdiv a s = 0 := Int.tdiv_eq_zero_of_lt (by omega) (by omega)
      rw [this] at e; omega
  · obtain ⟨a, h1, e⟩ := Res.bind_eq_ok.1 e
    obtain ⟨b, h2, e⟩ := Res.bind_eq_ok.1 e
    obtain ⟨c, h3, e⟩ := Res.bind_eq_ok.1 e
    have h1 := chk64_debug h1
    have h2 := chk64_debug h2
    have h3 := chk64_debug h3
    have e := chk64_debug e
    have : 0 ≤ Int.tdiv b s * s := Int.mul_nonneg (Int.tdiv_nonneg (by omega) (by omega)) (by omega)
    rcases hk with rfl | rfl <;> omega

theorem adjust_signed {k : Int} (hk : k = 1 ∨ k = -1) {a v : Interval} {typmod : Int} (h : 0 ≤ k * a.month ∧ 0 ≤ k * a.day ∧ 0 ≤ k * a.time)
    (e : a.adjustByTypmod .debug typmod = .ok v) : 0 ≤ k * v.month ∧ 0 ≤ k * v.day ∧ 0 ≤ k * v.time := by
  unfold Interval.adjustByTypmod at e
  split at e
  · obtain ⟨b, h1, e⟩ := Res.bind_eq_ok.1 e
    have hb := adjustRange_signed hk h h1
    split at e
    · split at e
      · cases e
      · obtain ⟨t, h2, e⟩ := Res.bind_eq_ok.1 e
        cases e
        refine ⟨hb.1, hb.2.1, ?_⟩
        rename_i hr _
        unfold Interval.roundTo at h2
        split at h2
        · rename_i x y hx hy
          have tab : ∀ n : Nat, Interval.scales[n]? = some x → Interval.offsets[n]? = some y → 0 < x ∧ 0 ≤ y ∧ y < x := by
            intro n h1 h2
            unfold Interval.scales at h1
            unfold Interval.offsets at h2
            rcases n with _ | _ | _ | _ | _ | _ | _ | n <;> simp at h1 h2 <;> omega
          obtain ⟨t1, t2, t3⟩ := tab _ hx hy
          exact roundScale_signed hk t1 t2 t3 hb.2.2 h2
        · cases h2
    · cases e; exact hb
  · cases e; exact h

theorem ofDec_signed {k : Int} (hk : k = 1 ∨ k = -1) {s : IvS} (h : TmSigned k s.t) {v : Interval} {typmod : Int}
    (e : Interval.ofDec .debug s typmod = .ok v) : 0 ≤ k * v.month ∧ 0 ≤ k * v.day ∧ 0 ≤ k * v.time := by
  unfold Interval.ofDec at e
  split at e
  · obtain ⟨w, hw, e⟩ := Res.bind_eq_ok.1 e
    refine adjust_signed hk ?_ e
    unfold Interval.fromPgtime at hw
    simp only at hw
    split at hw
    · cases hw
    · obtain ⟨a, h1, hw⟩ := Res.bind_eq_ok.1 hw
      obtain ⟨b, h2, hw⟩ := Res.bind_eq_ok.1 hw
      obtain ⟨c, h3, hw⟩ := Res.bind_eq_ok.1 hw
      obtain ⟨d, h4, hw⟩ := Res.bind_eq_ok.1 hw
      obtain ⟨f, h5, hw⟩ := Res.bind_eq_ok.1 hw
      obtain ⟨g, h6, hw⟩ := Res.bind_eq_ok.1 hw
      have h1 := chk32_debug h1
      have h2 := chk32_debug h2
      have h3 := chk64_debug h3
      have h4 := chk64_debug h4
      have h5 := chk64_debug h5
      have h6 := chk64_debug h6
      cases hw
      unfold TmSigned at h
      dsimp only
      rcases hk with rfl | rfl <;> omega
  · cases e

theorem scanField_head {u : TokenField} {c : Nat} {r : Bytes} {f : Field} {rest : Bytes} (hc : c ≠ 45)
    (h : scanField u c (c :: r) = .ok (f, rest)) : f.2 ≠ [] ∧ f.2.head? ≠ some 45 := by
  have of : ∀ x y : Bytes, (c :: y) = x → x ≠ [] ∧ x.head? ≠ some 45 := by
    rintro x y rfl
    exact ⟨by simp, by simpa using hc⟩
  unfold scanField at h
  split at h
  · rename_i hd
    injection h with h
    obtain rfl : (scanDigit (c :: r)).1 = f := congrArg Prod.fst h
    unfold scanDigit
    rw [List.takeWhile_cons_of_pos hd]
    split
    · exact of _ _ rfl
    · dsimp only
      split
      · exact of _ _ rfl
      · split <;> exact of _ _ rfl
  · split at h
    · injection h with h
      obtain rfl : (scanDot (c :: r)).1 = f := congrArg Prod.fst h
      exact of _ _ rfl
    · split at h
      · rename_i ha
        have hl : lowerB c ≠ 45 := by
          have := (isAlpha_iff c).1 ha
          unfold lowerB isUpper
          split <;> omega
        unfold scanAlpha at h
        rw [List.takeWhile_cons_of_pos ha] at h
        obtain ⟨b, -, h⟩ := Res.bind_eq_ok.1 h
        split at h
        · cases h; exact ⟨by simp [lower], by simpa [lower] using hl⟩
        · cases h; exact ⟨by simp [lower], by simpa [lower] using hl⟩
      · unfold scanSign at h
        dsimp only at h
        split at h
        · cases h; exact of _ _ rfl
        · split at h
          · cases h; exact of _ _ rfl
          · split at h
            · cases h; exact of _ _ rfl
            · cases h

theorem scanLoop_noMinus {u : TokenField} : ∀ (fuel : Nat) (s : Bytes) (cap nf : Nat) (l : List Field), (∀ b ∈ s, b ≠ 45) →
    scanLoop u fuel s cap nf = .ok l → ∀ f ∈ l, f.2 ≠ [] ∧ f.2.head? ≠ some 45 := by
  intro fuel
  induction fuel with
  | zero => intro s cap nf l _ h; rw [scanLoop] at h; cases h; simp
  | succ n ih =>
    intro s cap nf l hs h
    rw [scanLoop] at h
    have e0 := List.takeWhile_append_dropWhile (p := isSpace) (l := s)
    generalize s.dropWhile isSpace = y at *
    have hy : ∀ b ∈ y, b ≠ 45 := fun b hb => hs b (by rw [← e0]; exact List.mem_append_right _ hb)
    split at h
    · cases h; simp
    · rename_i c r
      split at h
      · cases h
      · split at h
        · rename_i hst
          split at h
          · cases h
          · obtain ⟨⟨f, rest⟩, hf, h⟩ := Res.bind_eq_ok.1 h
            simp only at h
            split at h
            · cases h
            · obtain ⟨l', hl, h⟩ := Res.bind_eq_ok.1 h
              cases h
              obtain ⟨⟨used, h1, -⟩, -⟩ := field_kind (u := u) hst hf
              intro g hg
              rcases List.mem_cons.1 hg with rfl | hg
              · exact scanField_head (hy c (by simp)) hf
              · exact ih _ _ _ _ (fun b hb => hy b (by rw [h1]; exact List.mem_append_right _ hb)) hl g hg
        · split at h
          · exact ih _ _ _ _ (fun b hb => hy b ((List.dropWhile_suffix _).subset hb)) h
          · cases h

theorem interval_noScan {p : Profile} {u : TokenField} {c : Caches} (hc : c.Ok) (typmod : Int) (style : IntervalStyle) {s : Bytes}
    {r : Res Interval} (h : scan u s = .panic ∧ r = .panic ∨ ∃ e, scan u s = .err e ∧ r = .err e) :
    Interval.tryFromStr p u c s typmod style = r := by
  rw [Interval.tryFromStr, (same_interval p u typmod style s c hc).1, Interval.tryFromStrW]
  rcases h with ⟨h, rfl⟩ | ⟨e, h, rfl⟩ <;> rw [h] <;> rfl

/-- Two styles for which the end of the decoder does the same. -/
theorem interval_sameTail {p : Profile} {u : TokenField} {c : Caches} (hc : c.Ok) (typmod : Int) {s1 s2 : IntervalStyle} {s : Bytes}
    (h : ∀ l, scan u s = .ok l → ivTail p s1 l = ivTail p s2 l) :
    Interval.tryFromStr p u c s typmod s1 = Interval.tryFromStr p u c s typmod s2 := by
  cases hs : scan u s with
  | panic => rw [interval_noScan hc typmod s1 (Or.inl ⟨hs, rfl⟩), interval_noScan hc typmod s2 (Or.inl ⟨hs, rfl⟩)]
  | err e => rw [interval_noScan hc typmod s1 (Or.inr ⟨e, hs, rfl⟩), interval_noScan hc typmod s2 (Or.inr ⟨e, hs, rfl⟩)]
  | ok l =>
    have key : decodeInterval p plainLook (parseRange typmod) s1 l ({}, ()) = decodeInterval p plainLook (parseRange typmod) s2 l ({}, ()) := by
      rcases decodeInterval_tail p (parseRange typmod) l with ⟨r, t, e, -⟩ | ⟨t, e⟩
      · rw [e s1, e s2]
      · rw [e s1, e s2, h l hs]
    rcases hr : St.orElse (decodeInterval p plainLook (parseRange typmod) s2 l) (noLook (decodeIsoInterval p s)) ({}, ()) with ⟨r, d, w⟩
    rw [interval_run p u hc typmod s2 hs hr]
    refine interval_run p u hc typmod s1 hs (w := w) ?_
    unfold St.orElse at hr ⊢
    rw [key]
    exact hr

end Pg

namespace Props
open Pg Spec

/-- **C84, the other styles.** Reading an interval gives the same result with any two styles other than SQL. -/
theorem C84_styles (p : Profile) (u : TokenField) (c : Caches) (hc : c.Ok) (typmod : Int) (s : Bytes) (s1 s2 : IntervalStyle)
    (h1 : s1 ≠ .sqlStandard) (h2 : s2 ≠ .sqlStandard) :
    Interval.tryFromStr p u c s typmod s1 = Interval.tryFromStr p u c s typmod s2 :=
  interval_sameTail hc typmod fun l _ => ivTail_other p h1 h2 l

/-- **C84, no minus sign.** Reading a text without minus sign gives the same result with all styles. -/
theorem C84_noMinus (p : Profile) (u : TokenField) (c : Caches) (hc : c.Ok) (typmod : Int) (s : Bytes) (s1 s2 : IntervalStyle)
    (h : ∀ b ∈ s, b ≠ 45) : Interval.tryFromStr p u c s typmod s1 = Interval.tryFromStr p u c s typmod s2 := by
  refine interval_sameTail hc typmod fun l hl => ivTail_noMinus p (fun f hf => ?_) s1 s2
  unfold scan at hl
  split at hl
  · cases hl
  · exact scanLoop_noMinus _ _ _ _ _ h hl f hf

/-- **C84, the SQL style.** What a text gives with the SQL style is what it gives with the other styles, or months, days and time all
have one sign. In a debug build; a release build can wrap around (`C84_violated`). -/
theorem C84_sql_partial (u : TokenField) (c : Caches) (hc : c.Ok) (typmod : Int) (s : Bytes) (style : IntervalStyle) (v : Interval)
    (h : Interval.tryFromStr .debug u c s typmod .sqlStandard = .ok v) :
    Interval.tryFromStr .debug u c s typmod style = .ok v ∨ (v.month ≤ 0 ∧ v.day ≤ 0 ∧ v.time ≤ 0) ∨
      (0 ≤ v.month ∧ 0 ≤ v.day ∧ 0 ≤ v.time) := by
  by_cases hst : style = .sqlStandard
  · rw [hst]; exact Or.inl h
  cases hs : scan u s with
  | panic => rw [interval_noScan hc _ _ (Or.inl ⟨hs, rfl⟩)] at h; cases h
  | err e => rw [interval_noScan hc _ _ (Or.inr ⟨e, hs, rfl⟩)] at h; cases h
  | ok l =>
    rcases decodeInterval_tail .debug (parseRange typmod) l with ⟨r, t, e, -⟩ | ⟨t, e⟩
    · left
      rw [← h]
      rcases hr : St.orElse (decodeInterval .debug plainLook (parseRange typmod) .sqlStandard l) (noLook (decodeIsoInterval .debug s)) ({}, ())
        with ⟨r', d, w⟩
      rw [interval_run .debug u hc typmod .sqlStandard hs hr]
      refine interval_run .debug u hc typmod style hs (w := w) ?_
      unfold St.orElse at hr ⊢
      rw [e style]
      rw [e .sqlStandard] at hr
      exact hr
    · rcases hr : ivTail .debug .sqlStandard l t with ⟨r, t'⟩
      have hd := e .sqlStandard
      rw [hr] at hd
      dsimp only at hd
      cases r with
      | err e' => exact absurd (congrArg Prod.fst hr) (ivTail_noErr _ _ _ _)
      | panic =>
        rw [interval_run .debug u hc typmod .sqlStandard hs (r := .panic) (d := t') (w := ()) (by unfold St.orElse; rw [hd])] at h
        cases h
      | ok a =>
        rw [interval_run .debug u hc typmod .sqlStandard hs (r := .ok a) (d := t') (w := ()) (by unfold St.orElse; rw [hd])] at h
        simp only [Res.bind_ok] at h
        rcases ivTail_sql l t t' hr with h1 | h1 | h1
        · left
          have hd' := e style
          rw [h1 style hst] at hd'
          dsimp only at hd'
          rw [interval_run .debug u hc typmod style hs (r := .ok ()) (d := t') (w := ()) (by unfold St.orElse; rw [hd'])]
          exact h
        · have := ofDec_signed (Or.inr rfl) h1 h
          exact Or.inr (Or.inl (by omega))
        · have := ofDec_signed (Or.inl rfl) h1 h
          exact Or.inr (Or.inr (by omega))

/-- **C84 is violated in a release build:** an interval that the SQL style makes negative has a positive time. -/
theorem C84_violated (u : TokenField) (c : Caches) (hc : c.Ok) :
    Interval.tryFromStr .release u c b!"-1 day 2147483647 hours" (-1) .sqlStandard = .ok ⟨0, -1, 3600000000⟩ ∧
    Interval.tryFromStr .release u c b!"-1 day 2147483647 hours" (-1) .postgres = .ok ⟨0, -1, -3600000000⟩ := by
  have hs : scan u b!"-1 day 2147483647 hours" = .ok [(.tz, b!"-1"), (.string, b!"day"), (.number, b!"2147483647"), (.string, b!"hours")] := by
    cases u <;> decide +kernel
  exact ⟨interval_eval .release u hc (-1) .sqlStandard hs (by decide +kernel),
    interval_eval .release u hc (-1) .postgres hs (by decide +kernel)⟩

/-! ## Cases -/

example : (∀ b ∈ b!"P1Y2M3DT4H", b ≠ 45) ∧ (∀ b ∈ b!"1 year +2 days 10:00 ago", b ≠ 45) := by decide +kernel

/-- With a minus sign the styles differ; all parts have one sign in the SQL style. -/
example (u : TokenField) (c : Caches) (hc : c.Ok) :
    Interval.tryFromStr .debug u c b!"-1 day 20 hours" (-1) .sqlStandard = .ok ⟨0, -1, -72000000000⟩ ∧
    Interval.tryFromStr .debug u c b!"-1 day 20 hours" (-1) .iso8601 = .ok ⟨0, -1, 72000000000⟩ := by
  have hs : scan u b!"-1 day 20 hours" = .ok [(.tz, b!"-1"), (.string, b!"day"), (.number, b!"20"), (.string, b!"hours")] := by
    cases u <;> decide +kernel
  exact ⟨interval_eval .debug u hc (-1) .sqlStandard hs (by decide +kernel), interval_eval .debug u hc (-1) .iso8601 hs (by decide +kernel)⟩

end Props
