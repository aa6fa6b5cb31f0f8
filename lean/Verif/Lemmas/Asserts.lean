import Verif.Model.Format
import Verif.Model.Scan

/-! # The conditions asserted in debug builds -/

namespace Pg

theorem chkU32_bounds {p : Profile} {x y : Int} (h : chkU32 p x = .ok y) : 0 ≤ y ∧ y ≤ 4294967295 := by
  unfold chkU32 at h
  split at h
  · rename_i hx; cases h; unfold InU32 at hx; omega
  · cases p
    · cases h
    · cases h; unfold wrapU32; omega

theorem julian2date_month {p : Profile} {jd : Int} {c : Int × Int × Int} (h : julian2date p jd = .ok c) :
    1 ≤ c.2.1 ∧ c.2.1 ≤ 12 := by
  unfold julian2date at h
  simp only [Res.bind_eq_ok] at h
  iterate 12 (obtain ⟨_, -, h⟩ := h)
  have last : ∀ {x : Int} {y d : Int}, (chkU32 p x >>= fun t => chkU32 p (t % 12 + 1) >>= fun m =>
      (pure (y, wrap32 m, wrap32 d) : Res (Int × Int × Int))) = .ok c → 1 ≤ c.2.1 ∧ c.2.1 ≤ 12 := by
    intro x y d h
    simp only [Res.bind_eq_ok] at h
    obtain ⟨t, ht, m, hm, h⟩ := h
    have h1 := chkU32_bounds ht
    have h2 : m = t % 12 + 1 := by
      unfold chkU32 at hm
      rw [if_pos (by unfold InU32; omega)] at hm
      cases hm; rfl
    cases h
    simp only
    unfold wrap32
    omega
  split at h
  all_goals
    simp only [Res.bind_eq_ok] at h
    iterate 8 (obtain ⟨_, -, h⟩ := h)
    simp only [← Res.bind_eq_ok] at h
    exact last h

theorem timestamp2time_month {p : Profile} {t : Int} {r : PgTime × Int} (h : timestamp2time p t = .ok r) :
    1 ≤ r.1.mon ∧ r.1.mon ≤ 12 := by
  unfold timestamp2time at h
  simp only [Res.bind_eq_ok] at h
  obtain ⟨_, -, _, -, _, -, h⟩ := h
  split at h
  · cases h
  · simp only [Res.bind_eq_ok] at h
    obtain ⟨c, hc, _, -, h⟩ := h
    cases h
    exact julian2date_month hc

/-- The text of a signed field starts with its sign. -/
def Signed (f : Field) : Prop := f.1 = .tz → ∃ r, f.2 = 43 :: r ∨ f.2 = 45 :: r

theorem scanField_signed {u : TokenField} {c : Nat} {r : Bytes} {f : Field} {rest : Bytes}
    (hc : (isDigit c || c = 46 || isAlpha c || c = 43 || c = 45) = true)
    (h : scanField u c (c :: r) = .ok (f, rest)) : Signed f := by
  intro ht
  unfold scanField at h
  split at h
  · exfalso
    simp only [Res.ok.injEq] at h
    have e : f = (scanDigit (c :: r)).1 := by rw [h]
    rw [e] at ht
    revert ht
    unfold scanDigit
    dsimp only
    split
    · simp
    · split
      · simp
      · split
        · unfold scanDelim
          dsimp only
          split
          · split <;> simp
          · split
            · split
              · simp
              · split <;> simp
            · simp
        · simp
  · split at h
    · simp only [Res.ok.injEq] at h
      have e : f = (scanDot (c :: r)).1 := by rw [h]
      rw [e] at ht
      simp [scanDot] at ht
    · split at h
      · exfalso
        unfold scanAlpha at h
        simp only [Res.bind_eq_ok] at h
        obtain ⟨b, -, h⟩ := h
        split at h <;> (cases h; cases ht)
      · rename_i h1 h2 h3
        have hs : c = 43 ∨ c = 45 := by
          simp only [Bool.not_eq_true] at h1 h3
          simp only [h1, h3, Bool.false_or, Bool.or_false, Bool.or_eq_true, decide_eq_true_eq, h2, false_or] at hc
          exact hc
        have key : ∃ t, f.2 = c :: t := by
          unfold scanSign at h
          dsimp only at h
          split at h
          · cases h; exact ⟨_, rfl⟩
          · split at h
            · cases h; exact ⟨_, rfl⟩
            · split at h
              · cases h; exact ⟨_, rfl⟩
              · cases h
        obtain ⟨t, e⟩ := key
        refine ⟨t, ?_⟩
        rcases hs with rfl | rfl
        · exact .inl e
        · exact .inr e

theorem scanLoop_signed (u : TokenField) (n : Nat) (s : Bytes) (cap nf : Nat) (l : List Field)
    (h : scanLoop u n s cap nf = .ok l) : ∀ f ∈ l, Signed f := by
  induction n generalizing s cap nf l with
  | zero => cases h; simp
  | succ n ih =>
    unfold scanLoop at h
    split at h
    · cases h; simp
    · split at h
      · cases h
      · split at h
        · rename_i hc
          split at h
          · cases h
          · simp only [Res.bind_eq_ok] at h
            obtain ⟨⟨f, rest⟩, hf, h⟩ := h
            dsimp only at h
            split at h
            · cases h
            · simp only [Res.bind_eq_ok] at h
              obtain ⟨l', hl, h⟩ := h
              cases h
              intro g hg
              rcases List.mem_cons.1 hg with rfl | hg
              · exact scanField_signed hc hf
              · exact ih _ _ _ _ hl g hg
        · split at h
          · exact ih _ _ _ _ h
          · cases h

end Pg
