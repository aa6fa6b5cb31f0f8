import Verif.Model.Format
import Verif.Spec.Text

/-!
# Facts about the text output routines
-/

namespace Pg
open Spec

/-! ## Decimal text -/

theorem natText_lt {n : Nat} (h : n < 10) : natText n = [48 + n] := by rw [natText, if_pos h]
theorem natText_ge {n : Nat} (h : 10 ≤ n) : natText n = natText (n / 10) ++ [48 + n % 10] := by
  rw [natText, if_neg (by omega)]

theorem natText_ne (n : Nat) : natText n ≠ [] := by
  by_cases h : n < 10
  · rw [natText_lt h]; simp
  · rw [natText_ge (by omega)]; simp

theorem natText_pos (n : Nat) : 1 ≤ (natText n).length := by
  have := natText_ne n
  cases h : natText n <;> simp_all

theorem value_append (a : List Nat) (d : Nat) : value (a ++ [d]) = 10 * value a + (d - 48) := by
  simp [value]

theorem natText_value (n : Nat) : value (natText n) = n := by
  induction n using natText.induct with
  | case1 n h => rw [natText_lt h]; simp [value]
  | case2 n h ih => rw [natText_ge (by omega), value_append, ih]; omega

theorem natText_digits (n : Nat) : Digits (natText n) := by
  induction n using natText.induct with
  | case1 n h => rw [natText_lt h]; intro d hd; simp at hd; omega
  | case2 n h ih =>
    rw [natText_ge (by omega)]
    intro d hd
    rcases List.mem_append.1 hd with hd | hd
    · exact ih d hd
    · simp at hd; omega

theorem natText_head (n : Nat) : (natText n).head? = some 48 → natText n = [48] := by
  induction n using natText.induct with
  | case1 n h => rw [natText_lt h]; simp
  | case2 n h ih =>
    rw [natText_ge (by omega)]
    intro hh
    have := ih (by
      cases h' : natText (n / 10) with
      | nil => exact absurd h' (natText_ne _)
      | cons a t => rw [h'] at hh; simpa using hh)
    have hv := natText_value (n / 10)
    rw [this] at hv
    simp [value] at hv
    omega

theorem natText_len {n k : Nat} (hk : 1 ≤ k) : (natText n).length ≤ k ↔ n < 10 ^ k := by
  induction n using natText.induct generalizing k with
  | case1 n h =>
    rw [natText_lt h]
    have : 10 ^ 1 ≤ 10 ^ k := Nat.pow_le_pow_right (by omega) hk
    simp; omega
  | case2 n h ih =>
    rw [natText_ge (by omega)]
    obtain ⟨m, rfl⟩ : ∃ m, k = m + 1 := ⟨k - 1, by omega⟩
    rcases Nat.eq_zero_or_pos m with rfl | hm
    · have := natText_pos (n / 10)
      simp only [List.length_append, List.length_cons, List.length_nil]
      omega
    · have := @ih m hm
      rw [List.length_append, Nat.pow_succ, show [48 + n % 10].length = 1 from rfl]
      rw [show (natText (n / 10)).length + 1 ≤ m + 1 ↔ (natText (n / 10)).length ≤ m by omega, this]
      omega

theorem intText_decimal (v : Int) : IsDecimal v (intText v) := by
  refine ⟨natText v.natAbs, ?_, natText_ne _, natText_digits _, natText_value _, natText_head _⟩
  unfold intText; split <;> simp

theorem value_replicate (k : Nat) (t : List Nat) : value (List.replicate k 48 ++ t) = value t := by
  have : ∀ k, (List.replicate k 48).foldl (fun a d => 10 * a + (d - 48)) 0 = 0 := by
    intro k
    induction k with
    | zero => rfl
    | succ k ih => simpa [List.replicate_succ] using ih
  simp [value, List.foldl_append, this]

theorem digits_append {a b : List Nat} : Digits (a ++ b) ↔ Digits a ∧ Digits b := by
  refine ⟨fun h => ⟨fun d hd => h d (List.mem_append_left _ hd),
    fun d hd => h d (List.mem_append_right _ hd)⟩, fun h d hd => ?_⟩
  rcases List.mem_append.1 hd with hd | hd
  · exact h.1 d hd
  · exact h.2 d hd

theorem padText_padded (w : Nat) (hw : 1 ≤ w) (n : Nat) : IsPadded w n (padText w n) := by
  refine ⟨?_, ?_, ?_, ?_⟩
  · refine digits_append.2 ⟨?_, natText_digits n⟩
    intro d hd; have := (List.mem_replicate.1 hd).2; omega
  · rw [padText, value_replicate, natText_value]; rfl
  · intro h
    have h' : n < 10 ^ w := by exact_mod_cast h
    have := (natText_len hw).2 h'
    simp [padText]; omega
  · intro h
    have h' : 10 ^ w ≤ n := by exact_mod_cast h
    have : ¬ (natText n).length ≤ w := by rw [natText_len hw]; omega
    rw [padText, show w - (natText n).length = 0 by omega]
    have := intText_decimal n
    rwa [intText, if_neg (by omega), Int.natAbs_natCast] at this

/-! ## Indexed writes -/

theorem setB_at (pre : Bytes) (x : Nat) (post : Bytes) (b : Nat) :
    setB (pre ++ x :: post) pre.length b = .ok (pre ++ b :: post) := by
  simp [setB]

theorem posDigits_eq (fuel : Nat) (pre rest : Bytes) (n : Nat) (hf : (natText n).length ≤ fuel)
    (hr : (natText n).length ≤ rest.length) :
    posDigits fuel (pre ++ rest) n pre.length =
      .ok (pre ++ ((natText n).reverse ++ rest.drop (natText n).length),
        pre.length + (natText n).length - 1) := by
  induction fuel generalizing pre rest n with
  | zero => have := natText_pos n; omega
  | succ fuel ih =>
    obtain ⟨x, post, rfl⟩ : ∃ x post, rest = x :: post := by
      cases rest with
      | nil => simp [natText_ne] at hr
      | cons x post => exact ⟨x, post, rfl⟩
    rw [posDigits, tdiv_nn (by omega)]
    have e : (48 + ((n : Int) - (n : Int) / 10 * 10)).toNat = 48 + n % 10 := by omega
    simp only [e]
    rw [setB_at, Res.bind_ok]
    by_cases h : n < 10
    · rw [if_pos (by omega), natText_lt h]
      simp [Nat.mod_eq_of_lt h]
    · rw [if_neg (by omega)]
      have hn := natText_ge (n := n) (by omega)
      rw [hn] at hf hr ⊢
      simp only [List.length_append, List.length_cons, List.length_nil] at hf hr
      have := ih (pre ++ [48 + n % 10]) post (n / 10) (by omega) (by omega)
      rw [show ((n : Int) / 10) = ((n / 10 : Nat) : Int) by omega,
        show pre.length + 1 = (pre ++ [48 + n % 10]).length by simp,
        show pre ++ (48 + n % 10) :: post = (pre ++ [48 + n % 10]) ++ post by simp, this]
      have := natText_pos (n / 10)
      simp

theorem negDigits_eq (fuel : Nat) (pre rest : Bytes) (n : Nat) (hf : (natText n).length ≤ fuel)
    (hr : (natText n).length ≤ rest.length) :
    negDigits fuel (pre ++ rest) (-n) pre.length =
      .ok (pre ++ ((natText n).reverse ++ rest.drop (natText n).length),
        pre.length + (natText n).length - 1) := by
  induction fuel generalizing pre rest n with
  | zero => have := natText_pos n; omega
  | succ fuel ih =>
    obtain ⟨x, post, rfl⟩ : ∃ x post, rest = x :: post := by
      cases rest with
      | nil => simp [natText_ne] at hr
      | cons x post => exact ⟨x, post, rfl⟩
    rw [negDigits, tdiv_np (by omega)]
    have e : (48 - (-(n : Int) - -(- -(n : Int) / 10) * 10)).toNat = 48 + n % 10 := by omega
    simp only [e]
    rw [setB_at, Res.bind_ok]
    by_cases h : n < 10
    · rw [if_pos (by omega), natText_lt h]
      simp [Nat.mod_eq_of_lt h]
    · rw [if_neg (by omega)]
      have hn := natText_ge (n := n) (by omega)
      rw [hn] at hf hr ⊢
      simp only [List.length_append, List.length_cons, List.length_nil] at hf hr
      have := ih (pre ++ [48 + n % 10]) post (n / 10) (by omega) (by omega)
      rw [show (-(- -(n : Int) / 10)) = -((n / 10 : Nat) : Int) by omega,
        show pre.length + 1 = (pre ++ [48 + n % 10]).length by simp,
        show pre ++ (48 + n % 10) :: post = (pre ++ [48 + n % 10]) ++ post by simp, this]
      have := natText_pos (n / 10)
      simp

theorem swapB_at (pre mid post : Bytes) (a b : Nat) :
    swapB (pre ++ (a :: mid ++ [b]) ++ post) pre.length (pre.length + mid.length + 1) =
      .ok (pre ++ (b :: mid ++ [a]) ++ post) := by
  have h1 : (pre ++ (a :: mid ++ [b]) ++ post)[pre.length]? = some a := by simp
  have h2 : (pre ++ (a :: mid ++ [b]) ++ post)[pre.length + mid.length + 1]? = some b := by
    rw [show pre.length + mid.length + 1 = (pre ++ a :: mid).length by simp; omega,
      show pre ++ (a :: mid ++ [b]) ++ post = (pre ++ a :: mid) ++ b :: post by simp]
    simp
  rw [swapB, h1, h2]
  show Res.ok _ = _
  congr 1
  rw [show pre ++ (a :: mid ++ [b]) ++ post = pre ++ a :: (mid ++ b :: post) by simp,
    List.set_append_right _ _ (by omega), Nat.sub_self, List.set_cons_zero,
    show pre.length + mid.length + 1 = (pre ++ b :: mid).length by simp; omega,
    show pre ++ b :: (mid ++ (b :: post)) = (pre ++ b :: mid) ++ b :: post by simp,
    List.set_append_right _ _ (by omega), Nat.sub_self, List.set_cons_zero]
  simp

theorem revLoop_eq (k : Nat) : ∀ (pre seg post : Bytes), seg.length = k + 1 →
    revLoop (pre ++ seg ++ post) pre.length (pre.length + k) =
      .ok (pre ++ seg.reverse ++ post) := by
  induction k using Nat.strongRecOn with
  | _ k ih =>
    intro pre seg post hk
    rcases k with _ | k
    · obtain ⟨a, rfl⟩ := List.length_eq_one_iff.1 hk
      cases h : pre.length + 0 with
      | zero => simp [revLoop]
      | succ e => rw [revLoop, if_neg (by omega)]; simp
    · obtain ⟨a, tl, rfl⟩ : ∃ a tl, seg = a :: tl := by
        cases seg with
        | nil => simp at hk
        | cons a tl => exact ⟨a, tl, rfl⟩
      obtain ⟨mid, b, rfl⟩ : ∃ mid b, tl = mid ++ [b] := by
        refine ⟨tl.dropLast, tl.getLast (by intro h; simp [h] at hk), ?_⟩
        exact (List.dropLast_concat_getLast _).symm
      have hm : mid.length = k := by simp at hk; omega
      rw [show pre.length + (k + 1) = (pre.length + k) + 1 by omega, revLoop,
        if_pos (by omega), ← hm]
      have := swapB_at pre mid post a b
      rw [List.cons_append] at this
      rw [this, Res.bind_ok]
      rcases k with _ | k
      · have : mid = [] := by simpa using hm
        subst this
        dsimp only [List.length_nil]
        cases h : pre.length with
        | zero => simp [revLoop]
        | succ e => rw [revLoop, if_neg (by omega)]; simp
      · have := ih k (by omega) (pre ++ [b]) mid (a :: post) (by omega)
        rw [show pre ++ (b :: mid ++ [a]) ++ post = (pre ++ [b]) ++ mid ++ (a :: post) by simp,
          show pre.length + 1 = (pre ++ [b]).length by simp,
          show pre.length + mid.length = (pre ++ [b]).length + k by simp; omega, this]
        simp

/-- `f` writes exactly `w` at the front of any buffer that is long enough. -/
def Writes (f : Bytes → Res (Bytes × Nat)) (w : Bytes) : Prop :=
  ∀ s, w.length ≤ s.length → f s = .ok (w ++ s.drop w.length, w.length)

theorem i32_len {v : Int} (h : In32 v) : (natText v.natAbs).length ≤ 10 := by
  rw [natText_len (by omega)]
  unfold In32 at h
  have : v.natAbs ≤ 2147483648 := by omega
  omega

theorem pgLtostr_writes {v : Int} (h : In32 v) : Writes (pgLtostr v) (intText v) := by
  intro s hs
  have hl := i32_len h
  have hp := natText_pos v.natAbs
  unfold intText at hs ⊢
  by_cases hv : v < 0
  · rw [if_pos hv] at hs
    rw [if_pos hv, pgLtostr, if_pos hv]
    obtain ⟨x, post, rfl⟩ : ∃ x post, s = x :: post := by
      cases s with
      | nil => simp at hs
      | cons x post => exact ⟨x, post, rfl⟩
    have h0 := setB_at [] x post 45
    simp only [List.nil_append, List.length_nil] at h0
    rw [h0, Res.bind_ok]
    simp only [List.length_cons] at hs
    have h1 := negDigits_eq digitFuel [45] post v.natAbs (by unfold digitFuel; omega) (by omega)
    rw [show -(v.natAbs : Int) = v by omega] at h1
    simp only [List.cons_append, List.nil_append, List.length_cons, List.length_nil,
      Nat.zero_add] at h1
    rw [h1, Res.bind_ok]
    have h2 := revLoop_eq ((natText v.natAbs).length - 1) [45] (natText v.natAbs).reverse
      (post.drop (natText v.natAbs).length) (by simp; omega)
    simp only [List.cons_append, List.nil_append, List.length_cons, List.length_nil,
      List.reverse_reverse, Nat.zero_add] at h2
    dsimp only
    rw [show 1 + (natText v.natAbs).length - 1 = 1 + ((natText v.natAbs).length - 1) by omega, h2,
      Res.bind_ok]
    simp; omega
  · rw [if_neg hv] at hs
    rw [if_neg hv, pgLtostr, if_neg hv]
    have h1 := posDigits_eq digitFuel [] s v.natAbs (by unfold digitFuel; omega) (by omega)
    rw [show (v.natAbs : Int) = v by omega] at h1
    simp only [List.nil_append, List.length_nil, Nat.zero_add] at h1
    rw [h1, Res.bind_ok]
    have h2 := revLoop_eq ((natText v.natAbs).length - 1) [] (natText v.natAbs).reverse
      (s.drop (natText v.natAbs).length) (by simp; omega)
    simp only [List.nil_append, List.length_nil,
      List.reverse_reverse, Nat.zero_add] at h2
    dsimp only
    rw [h2, Res.bind_ok]
    simp; omega

/-- The last `w` digits of `n`, with leading zeros. -/
def padDigits : Nat → Nat → Bytes
  | 0, _ => []
  | w + 1, n => padDigits w (n / 10) ++ [48 + n % 10]

theorem padDigits_len (w n : Nat) : (padDigits w n).length = w := by
  induction w generalizing n with
  | zero => rfl
  | succ w ih => simp [padDigits, ih]

theorem posPad_eq (w : Nat) (s : Bytes) (n : Nat) (h : w ≤ s.length) :
    posPad w s n = .ok (padDigits w n ++ s.drop w, ((n / 10 ^ w : Nat) : Int)) := by
  induction w generalizing s n with
  | zero => simp [posPad, padDigits]
  | succ w ih =>
    rw [posPad, tdiv_nn (by omega)]
    have e : (48 + ((n : Int) - (n : Int) / 10 * 10)).toNat = 48 + n % 10 := by omega
    simp only [e]
    rw [setB, if_pos (by omega), Res.bind_ok,
      show ((n : Int) / 10) = ((n / 10 : Nat) : Int) by omega, ih _ _ (by simp; omega)]
    have hd : (s.set w (48 + n % 10)).drop w = (48 + n % 10) :: s.drop (w + 1) := by
      rw [List.drop_set, if_neg (by omega), Nat.sub_self,
        List.drop_eq_getElem_cons (show w < s.length by omega), List.set_cons_zero]
    rw [hd, padDigits, Nat.div_div_eq_div_mul, ← Nat.pow_succ']
    simp

theorem padDigits_text (w : Nat) (n : Nat) (hw : 1 ≤ w) (h : n < 10 ^ w) :
    padDigits w n = padText w n := by
  induction w generalizing n with
  | zero => omega
  | succ w ih =>
    rw [padDigits]
    rcases Nat.eq_zero_or_pos w with rfl | hw'
    · have h : n < 10 := by simpa using h
      rw [padText, natText_lt h, Nat.mod_eq_of_lt h]; simp [padDigits]
    · rw [ih (n / 10) hw' (by rw [Nat.pow_succ] at h; omega)]
      by_cases h10 : n < 10
      · rw [show n / 10 = 0 by omega, padText, padText, natText_lt h10, natText_lt (by omega),
          Nat.mod_eq_of_lt h10]
        simp only [List.length_cons, List.length_nil]
        rw [show w + 1 - (0 + 1) = (w - 1) + 1 by omega, List.replicate_succ']
      · rw [padText, padText, natText_ge (n := n) (by omega)]
        simp

theorem zeropad_writes (p : Profile) {v : Int} (h : In32 v) (hv : 0 ≤ v) (w : Nat) (hw : 1 ≤ w) :
    Writes (pgLtostrZeropad p v w) (padText w v.natAbs) := by
  intro s hs
  rw [pgLtostrZeropad, if_neg (by omega)]
  have hws : w ≤ s.length := by
    have : (padText w v.natAbs).length = (w - (natText v.natAbs).length) + (natText v.natAbs).length := by
      simp [padText]
    omega
  have hp := posPad_eq w s v.natAbs hws
  rw [show (v.natAbs : Int) = v by omega] at hp
  rw [hp, Res.bind_ok]
  dsimp only
  by_cases hn : v.natAbs < 10 ^ w
  · rw [Nat.div_eq_of_lt hn, padRest, if_neg (by simp), padDigits_text w _ hw hn]
    have hl := (natText_len hw).2 hn
    have : (padText w v.natAbs).length = w := by simp [padText]; omega
    rw [this]
  · have hl : ¬ (natText v.natAbs).length ≤ w := by rw [natText_len hw]; exact hn
    have e : padText w v.natAbs = intText v := by
      rw [padText, intText, if_neg (by omega), show w - (natText v.natAbs).length = 0 by omega]; rfl
    have : v.natAbs / 10 ^ w ≠ 0 := by
      rw [Ne, Nat.div_eq_zero_iff]
      have : 0 < 10 ^ w := Nat.pow_pos (by omega)
      omega
    rw [padRest, if_pos (by exact_mod_cast this), e]
    rw [e] at hs
    have hi : intText v = natText v.natAbs := by rw [intText, if_neg (by omega)]
    rw [pgLtostr_writes h _ (by simp [padDigits_len]; omega)]
    congr 2
    rw [List.drop_append, padDigits_len, List.drop_of_length_le (by rw [padDigits_len, hi]; omega),
      List.nil_append, List.drop_drop, hi]
    congr 2
    omega

/-! ## Seconds -/

theorem strip_snoc_zero (t : Bytes) : stripZeros (t ++ [48]) = stripZeros t := by
  simp [stripZeros]

theorem strip_snoc (t : Bytes) {c : Nat} (h : c ≠ 48) : stripZeros (t ++ [c]) = t ++ [c] := by
  simp [stripZeros, h]

theorem strip_len (t : Bytes) : (stripZeros t).length ≤ t.length := by
  have := (List.dropWhile_suffix (p := (· == 48)) (l := t.reverse)).length_le
  simpa [stripZeros] using this

theorem fracLoop_true (pre : Bytes) (k : Nat) (rest : Bytes) (v n : Nat) (h : k ≤ rest.length) :
    fracLoop pre.length k (pre ++ rest) v true n =
      .ok (pre ++ (padDigits k v ++ rest.drop k), ((v / 10 ^ k : Nat) : Int), n + k) := by
  induction k generalizing rest v n with
  | zero => simp [fracLoop, padDigits]
  | succ k ih =>
    rw [fracLoop, tdiv_nn (by omega)]
    have e : (48 + ((v : Int) - (v : Int) / 10 * 10)).toNat = 48 + v % 10 := by omega
    simp only [e, Bool.true_or, if_true]
    have hset : setB (pre ++ rest) (pre.length + k) (48 + v % 10) =
        .ok (pre ++ rest.set k (48 + v % 10)) := by
      rw [setB, if_pos (by simp; omega), List.set_append_right _ _ (by omega),
        Nat.add_sub_cancel_left]
    rw [hset, Res.bind_ok, show ((v : Int) / 10) = ((v / 10 : Nat) : Int) by omega,
      ih _ _ _ (by simp; omega)]
    have hd : (rest.set k (48 + v % 10)).drop k = (48 + v % 10) :: rest.drop (k + 1) := by
      rw [List.drop_set, if_neg (by omega), Nat.sub_self,
        List.drop_eq_getElem_cons (show k < rest.length by omega), List.set_cons_zero]
    rw [hd, padDigits, Nat.div_div_eq_div_mul, ← Nat.pow_succ']
    simp; omega

theorem fracLoop_false (pre : Bytes) (k : Nat) (rest : Bytes) (v n : Nat)
    (h : (stripZeros (padDigits k v)).length ≤ rest.length) :
    fracLoop pre.length k (pre ++ rest) v false n =
      .ok (pre ++ (stripZeros (padDigits k v) ++ rest.drop (stripZeros (padDigits k v)).length),
        ((v / 10 ^ k : Nat) : Int), n + (stripZeros (padDigits k v)).length) := by
  induction k generalizing rest v n with
  | zero => simp [fracLoop, padDigits, stripZeros]
  | succ k ih =>
    rw [fracLoop, tdiv_nn (by omega)]
    by_cases h0 : v % 10 = 0
    · have e : padDigits (k + 1) v = padDigits k (v / 10) ++ [48] := by rw [padDigits, h0]
      rw [e, strip_snoc_zero] at h ⊢
      have hg : (false || decide ((v : Int) - (v : Int) / 10 * 10 ≠ 0)) = false := by
        simp; omega
      simp only [hg]
      rw [if_neg (by simp), show ((v : Int) / 10) = ((v / 10 : Nat) : Int) by omega, ih _ _ _ h,
        Nat.div_div_eq_div_mul, ← Nat.pow_succ']
    · have e : padDigits (k + 1) v = padDigits k (v / 10) ++ [48 + v % 10] := rfl
      have e1 : stripZeros (padDigits (k + 1) v) = padDigits (k + 1) v := by
        rw [e, strip_snoc _ (by omega)]
      have hg : (false || decide ((v : Int) - (v : Int) / 10 * 10 ≠ 0)) = true := by
        simp; omega
      have ht := fracLoop_true pre (k + 1) rest v n (by rw [e1, padDigits_len] at h; exact h)
      rw [fracLoop, tdiv_nn (by omega)] at ht
      simp only [hg, Bool.true_or] at ht ⊢
      rw [ht, e1, padDigits_len]

theorem abs32_ok (p : Profile) {x : Int} (h : In32 x) (h2 : x ≠ i32Min) :
    abs32 p x = .ok (x.natAbs : Int) := by
  unfold In32 at h
  unfold abs32
  split
  · rw [chk32_ok (by omega)]; congr 1; omega
  · congr 1; omega

theorem abs64_ok (p : Profile) {x : Int} (h : -i64Max ≤ x ∧ x ≤ i64Max) :
    abs64 p x = .ok (x.natAbs : Int) := by
  unfold abs64
  split
  · rw [chk64_ok (by omega)]; congr 1; omega
  · congr 1; omega

theorem secInt_writes (p : Profile) {sec : Int} (h : In32 sec) (h2 : sec ≠ i32Min) (fill : Bool) :
    Writes (secInt p sec fill) (if fill then padText 2 sec.natAbs else natText sec.natAbs) := by
  intro s hs
  rw [secInt, abs32_ok p h h2, Res.bind_ok]
  have h' : In32 (sec.natAbs : Int) := by unfold In32 at h ⊢; omega
  cases fill
  · rw [if_neg (by simp)] at hs
    rw [if_neg (by simp), if_neg (by simp)]
    have := pgLtostr_writes h'
    rw [intText, if_neg (by omega), Int.natAbs_natCast] at this
    exact this s hs
  · rw [if_pos rfl] at hs
    rw [if_pos rfl, if_pos rfl]
    have := zeropad_writes p h' (by omega) 2 (by omega)
    rw [Int.natAbs_natCast] at this
    exact this s hs

theorem appendSeconds_writes (p : Profile) {sec fsec : Int} (h : In32 sec) (h2 : sec ≠ i32Min)
    (hf : fsec.natAbs < 1000000) (fill : Bool) :
    Writes (appendSeconds p sec fsec fill) (secText fill sec.natAbs fsec.natAbs) := by
  intro s hs
  have hw := secInt_writes p h h2 fill
  rw [appendSeconds]
  have e : secText fill sec.natAbs fsec.natAbs =
    (if fill then padText 2 sec.natAbs else natText sec.natAbs) ++ fracText fsec.natAbs := by
    rw [secText]
  rw [e] at hs ⊢
  generalize (if fill then padText 2 sec.natAbs else natText sec.natAbs) = w at hw hs ⊢
  rw [List.length_append] at hs
  rw [hw s (by omega), Res.bind_ok]
  dsimp only
  by_cases h0 : fsec = 0
  · rw [if_neg (by simp [h0]), h0]
    simp [fracText]
  · rw [if_pos h0, abs64_ok p (by omega), Res.bind_ok]
    have hft : fracText fsec.natAbs = 46 :: stripZeros (padDigits 6 fsec.natAbs) := by
      rw [fracText, if_neg (by omega), padDigits_text 6 _ (by omega) (by simpa using hf)]
    rw [hft] at hs ⊢
    simp only [List.length_cons] at hs
    obtain ⟨x, post, hx⟩ : ∃ x post, s.drop w.length = x :: post := by
      cases hd : s.drop w.length with
      | nil => have := congrArg List.length hd; simp at this; omega
      | cons x post => exact ⟨x, post, rfl⟩
    have hpl : post.length + 1 + w.length = s.length := by
      have := congrArg List.length hx; simp at this; omega
    rw [hx, setB_at, Res.bind_ok]
    have hl := fracLoop_false (w ++ [46]) 6 post fsec.natAbs 0 (by omega)
    rw [Nat.div_eq_of_lt (by simpa using hf)] at hl
    simp only [List.length_append, List.length_cons, List.length_nil, List.append_assoc,
      List.cons_append, List.nil_append] at hl
    rw [show w.length + 1 = w.length + (0 + 1) by omega, hl, Res.bind_ok]
    dsimp only
    rw [fracRest, if_neg (by simp)]
    have hd : s.drop (w.length + (46 :: stripZeros (padDigits 6 fsec.natAbs)).length) =
        post.drop (stripZeros (padDigits 6 fsec.natAbs)).length := by
      rw [List.length_cons, ← List.drop_drop, hx, List.drop_succ_cons]
    rw [List.length_append, hd]
    simp; omega

/-! ## Composition of writers -/

/-- `g` appends exactly `w` to what has been written, if there is room. -/
def Emits (g : Buf → Res Buf) (w : Bytes) : Prop :=
  ∀ pre rest, w.length ≤ rest.length →
    g (pre ++ rest, pre.length) = .ok (pre ++ w ++ rest.drop w.length, (pre ++ w).length)

theorem Emits.bind {f g : Buf → Res Buf} {a b : Bytes} (hf : Emits f a) (hg : Emits g b) :
    Emits (fun x => f x >>= g) (a ++ b) := by
  intro pre rest h
  rw [List.length_append] at h
  show f _ >>= g = _
  rw [hf pre rest (by omega), Res.bind_ok, hg (pre ++ a) _ (by simp; omega)]
  simp

theorem Emits.nil : Emits (fun b => .ok b) [] := by intro pre rest _; simp

theorem Emits.sub {f : Bytes → Res (Bytes × Nat)} {w : Bytes} (h : Writes f w) :
    Emits (sub f) w := by
  intro pre rest hr
  rw [Pg.sub, if_pos (by simp)]
  simp only [List.drop_left, List.take_left]
  rw [h rest hr, Res.bind_ok]
  simp [Res.pure_eq]

theorem Emits.byte (x : Nat) : Emits (setOneByte x) [x] := by
  intro pre rest hr
  obtain ⟨y, post, rfl⟩ : ∃ y post, rest = y :: post := by
    cases rest with
    | nil => simp at hr
    | cons y post => exact ⟨y, post, rfl⟩
  rw [setOneByte, setB_at, Res.bind_ok]
  simp [Res.pure_eq]

theorem Emits.slice (x : Bytes) : Emits (copySlice x) x := by
  intro pre rest hr
  rw [copySlice, if_pos (by simp; omega)]
  simp [List.drop_append]

theorem Emits.run {f : Buf → Res Buf} {w : Bytes} (h : Emits f w) {junk : Bytes}
    (hj : w.length ≤ junk.length) : runFormat junk f = .ok w := by
  have := h [] junk hj
  simp only [List.nil_append, List.length_nil] at this
  rw [runFormat, this, Res.bind_ok]
  simp [Res.pure_eq]

theorem put2_emits (p : Profile) {v : Int} (h : In32 v) (hv : 0 ≤ v) :
    Emits (put2 p v) (padText 2 v.natAbs) := Emits.sub (zeropad_writes p h hv 2 (by omega))

theorem putInt_emits {v : Int} (h : In32 v) : Emits (putInt v) (intText v) :=
  Emits.sub (pgLtostr_writes h)

theorem putYear_emits (p : Profile) {y : Int} (h : -2147483646 ≤ y ∧ y ≤ i32Max) :
    Emits (putYear p y) (padText 4 (if 0 < y then y else 1 - y).natAbs) := by
  by_cases h0 : 0 < y
  · rw [if_pos h0]
    have : putYear p y = sub (pgLtostrZeropad p y 4) := by
      funext b; rw [putYear, shownYear, if_pos h0]; rfl
    rw [this]
    exact Emits.sub (zeropad_writes p (by unfold In32; omega) (by omega) 4 (by omega))
  · rw [if_neg h0]
    have : putYear p y = sub (pgLtostrZeropad p (1 - y) 4) := by
      funext b
      rw [putYear, shownYear, if_neg h0, chk32_ok (by omega), Res.bind_ok, chk32_ok (by omega),
        Res.bind_ok, show -(y - 1) = 1 - y by omega]
    rw [this]
    exact Emits.sub (zeropad_writes p (by unfold In32; omega) (by omega) 4 (by omega))

end Pg
