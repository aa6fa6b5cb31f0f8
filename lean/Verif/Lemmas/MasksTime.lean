import Verif.Lemmas.Masks

/-! # The masks of the fields seen so far, in a time of day -/

namespace Pg

variable {p : Profile} {order : DateOrder} {ftypes : List TokenField} {i : Nat}

theorem frame_numberT (w : Bytes) (s : Dec × Unit) :
    Post (numberTokenT p plainLook order ftypes i w) (fun _ s' => Frame s.1 s'.1) s := by
  unfold numberTokenT
  wp
  exact ⟨fun _ => frame_labelled w s.1, fun _ => ⟨fun _ => ⟨fun _ => frame_date w s, fun _ _ => frame_num _ s.1⟩,
    fun _ => ⟨fun _ => frame_num _ s.1, fun _ => frame_num _ s.1⟩⟩⟩

theorem frame_actionT (ty : TokenType) (v : Int) (d : Dec) : Post (wordActionT ftypes i ty v) (fun _ d' => Frame d d') d := by
  unfold wordActionT
  rw [Post.bind, Post.mod]
  split
  · unfold reservedWordT
    wp
    intro a _
    split <;> wp
    exact ⟨rfl, id⟩
  · rw [Post.mod]; exact ⟨rfl, id⟩
  · rw [Post.mod]; exact ⟨rfl, id⟩
  · wp
    exact fun _ _ => ⟨rfl, id⟩
  · unfold isoTimeWordT
    wp
    split
    · wp
    · wp
      exact fun _ _ _ => ⟨rfl, id⟩
  · wp

theorem frame_wordT (w : Bytes) (s : Dec × Unit) :
    Post (wordTokenT plainLook ftypes i w) (fun b s' => Frame s.1 s'.1 ∧ (b = true → s' = s)) s := by
  unfold wordTokenT
  rw [Post.bind, Post.look]
  dsimp only
  wp
  exact ⟨fun _ => Frame.refl _, fun _ => (frame_actionT _ _ s.1).mono fun _ _ h => ⟨h, fun h => by cases h⟩⟩

/-- A successful field adds its mask, or is ignored. -/
theorem field_maskT (f : Field) (s : Dec × Unit) : Post (timeOnlyField p plainLook order ftypes i f)
    (fun _ s' => Bits s.1.fMask s'.1.fMask) s := by
  have step : ∀ d : Dec, Frame s.1 d → Post addMask (fun _ d' => Bits s.1.fMask d'.fMask) d := by
    intro s' h
    rw [addMask_post]
    intro _
    rw [← h.1]; exact Bits.left _ _
  unfold timeOnlyField
  split <;> wp
  · unfold dateTokenT
    wp
    exact fun _ => (frame_date f.2 s).mono fun _ s' h => step _ h
  · exact (frame_time _ s.1).mono fun _ d' h => step _ h
  · exact (frame_numberT f.2 s).mono fun _ s' h => step _ h
  · refine (frame_wordT f.2 s).mono fun b s' h => ⟨fun hb => ?_, fun _ => step _ h.1⟩
    rw [h.2 hb]
    exact Bits.refl _
  · refine (frame_wordT f.2 s).mono fun b s' h => ⟨fun hb => ?_, fun _ => step _ h.1⟩
    rw [h.2 hb]
    exact Bits.refl _

theorem clock_claimsT (w : Bytes) (s : Dec × Unit) : Post (timeOnlyField p plainLook order ftypes i (.time, w))
    (fun _ s' => s'.1.fMask.testBit 10 = true ∧ s.1.fMask.testBit 10 = false) s := by
  unfold timeOnlyField onTime
  wp
  rw [Post.zoom]
  refine (decodeTime_mask w _ _).mono fun _ t h => ?_
  rw [addMask_post]
  dsimp only
  rw [h]
  intro hm
  exact ⟨Bits.right _ _ 10 (by decide), bits_apart hm 10 (by decide)⟩

theorem word_claimsT {w : Bytes} {ty : TokenType} {v : Int} (hw : tokenResult (lookupIn dateTable w) = (ty, v))
    (hty : ty = .ampm ∨ ty = .adbc) (s : Dec × Unit) :
    Post (timeOnlyField p plainLook order ftypes i (.string, w))
      (fun _ s' => s'.1.fMask.testBit ty.code = true ∧ s.1.fMask.testBit ty.code = false) s := by
  unfold timeOnlyField wordTokenT
  simp only
  rw [Post.bind, Post.bind, Post.look, hw]
  dsimp only
  rcases hty with rfl | rfl <;>
  · rw [if_neg (by decide), Post.bind]
    unfold wordActionT
    wp
    refine ⟨fun h => (by cases h), fun _ => ?_⟩
    rw [addMask_post]
    intro hm
    exact ⟨Bits.right _ _ _ (mask_bit _), bits_apart hm _ (mask_bit _)⟩

/-- Month names and weekdays have no place in a time of day. -/
theorem word_refusedT {w : Bytes} {ty : TokenType} {v : Int} (hw : tokenResult (lookupIn dateTable w) = (ty, v))
    (hty : ty = .month ∨ ty = .dow) (s : Dec × Unit) :
    Post (timeOnlyField p plainLook order ftypes i (.string, w)) (fun _ _ => False) s := by
  unfold timeOnlyField wordTokenT
  simp only
  rw [Post.bind, Post.bind, Post.look, hw]
  dsimp only
  rcases hty with rfl | rfl <;>
  · rw [if_neg (by decide), Post.bind]
    unfold wordActionT
    wp

theorem date_refusedT {w : Bytes} (s : Dec × Unit) (hi : 0 < i) :
    Post (timeOnlyField p plainLook order ftypes i (.date, w)) (fun _ _ => False) s := by
  unfold timeOnlyField dateTokenT
  wp
  intro h
  omega

end Pg
