import Verif.Model.Offset
import Verif.Basic.Tactics
/-!
# C79: a header helper that fails leaves the offset where it was

The two public helpers for the header of a vendor specific action body take the offset by reference.  A caller who
looks for one of several OUIs calls the check once for each of them, with the same offset.
-/
namespace Verif

variable [ScrollRule]

namespace Spec

/-- The offset after the call is the offset before it whenever the call has failed. -/
def KeepsOffset {α : Type} (p : OffRd α) : Prop :=
  ∀ inp off e, (p inp off).1 = .err e → (p inp off).2 = off

/-- The first OUI of the list whose check succeeds, as a caller would look for it: each check is given the offset the
one before it has left. -/
def firstOui (check : Arr 3 → OffRd Unit) : List (Arr 3) → Bytes → Nat → Option (Arr 3)
  | [], _, _ => none
  | o :: os, inp, off =>
    match check o inp off with
    | (.ok _, _) => some o
    | (_, off') => firstOui check os inp off'

end Spec

private theorem gread_u8 (inp : Bytes) (off : Nat) :
    (inp.drop off = [] ∧ ∃ e, OffRd.gread readU8 inp off = (.err e, off)) ∨
    (∃ c r, inp.drop off = c :: r ∧ OffRd.gread readU8 inp off = (.ok c, off + 1)) := by
  cases h : inp.drop off with
  | nil =>
    left
    refine ⟨rfl, ?_⟩
    have hr : readU8 [] = .err .tooBig := rfl
    simp only [OffRd.gread, Rd.gread, h, hr]
    cases badOff off inp.length <;> exact ⟨_, rfl⟩
  | cons c r =>
    right
    refine ⟨c, r, rfl, ?_⟩
    have hl : off < inp.length := by
      have := congrArg List.length h
      simp at this
      omega
    have hb : badOff off inp.length = false := by
      unfold badOff
      split <;> simp <;> omega
    simp only [OffRd.gread, Rd.gread, hb, h, readU8_cons]
    rfl

private theorem gread_arr3 (inp : Bytes) (off : Nat) :
    ((inp.drop off).length < 3 ∧ ∃ e, OffRd.gread (readArr 3) inp off = (.err e, off)) ∨
    (∃ (o : Arr 3) (r : Bytes), inp.drop off = o.val ++ r ∧
      OffRd.gread (readArr 3) inp off = (.ok o, off + 3)) := by
  by_cases hl : (inp.drop off).length < 3
  · left
    refine ⟨hl, ?_⟩
    have hr : readArr 3 (inp.drop off) = .err .tooBig := by
      unfold readArr
      rw [dif_neg (by omega)]
    simp only [OffRd.gread, Rd.gread, hr]
    cases badOff off inp.length <;> exact ⟨_, rfl⟩
  · right
    have hs : off < inp.length := by simp at hl; omega
    have hb : badOff off inp.length = false := by
      unfold badOff
      split <;> simp <;> omega
    refine ⟨⟨(inp.drop off).take 3, by simp at hl ⊢; omega⟩, (inp.drop off).drop 3, (List.take_append_drop 3 _).symm, ?_⟩
    simp only [OffRd.gread, Rd.gread, hb, readArr]
    rw [dif_pos (by omega)]
    rfl

omit [ScrollRule] in
private theorem bind_ok {α β : Type} {x : OffRd α} {f : α → OffRd β} {inp : Bytes} {off off' : Nat} {a : α}
    (h : x inp off = (.ok a, off')) : (x >>= f) inp off = f a inp off' := by
  show (match x inp off with
    | (.ok a, off') => f a inp off'
    | (.err e, off') => (.err e, off')
    | (.panic, off') => (.panic, off')) = _
  rw [h]

omit [ScrollRule] in
private theorem bind_err {α β : Type} {x : OffRd α} {f : α → OffRd β} {inp : Bytes} {off off' : Nat} {e : Err}
    (h : x inp off = (.err e, off')) : (x >>= f) inp off = (.err e, off') := by
  show (match x inp off with
    | (.ok a, off') => f a inp off'
    | (.err e, off') => (.err e, off')
    | (.panic, off') => (.panic, off')) = _
  rw [h]

omit [ScrollRule] in
private theorem vendor_iff (c : Byte) : CategoryCode.fromBits c = .VendorSpecific ↔ c = 127 := by
  constructor
  · intro h
    have := CategoryCode.intoBits_fromBits c
    rw [h] at this
    exact this.symm
  · rintro rfl
    decide

/-- The four ways the check can go, with what is left in the offset. -/
private theorem strip_cases (oui : Arr 3) (inp : Bytes) (off : Nat) :
    let r := OffRd.stripAndCheckVendorActionHeader oui inp off
    (inp.drop off = [] ∧ ∃ e, r = (.err e, off)) ∨
    (∃ c t, inp.drop off = c :: t ∧ c ≠ 127 ∧ r = (.err .badInput, off + 1)) ∨
    (∃ t, inp.drop off = 127 :: t ∧ t.length < 3 ∧ ∃ e, r = (.err e, off + 1)) ∨
    (∃ (o : Arr 3) (t : Bytes), inp.drop off = 127 :: (o.val ++ t) ∧ o ≠ oui ∧ r = (.err .badInput, off + 4)) ∨
    (∃ t : Bytes, inp.drop off = 127 :: (oui.val ++ t) ∧ r = (.ok (), off + 4)) := by
  intro r
  rcases gread_u8 inp off with ⟨h, e, he⟩ | ⟨c, t, h, hc⟩
  · exact .inl ⟨h, e, bind_err he⟩
  · have hr : r = _ := bind_ok hc
    by_cases hv : c = 127
    · subst hv
      rw [if_neg (by decide)] at hr
      have hd : inp.drop (off + 1) = t := by
        rw [← List.drop_drop, h]; rfl
      rcases gread_arr3 inp (off + 1) with ⟨hl, e, he⟩ | ⟨o, u, ho, hok⟩
      · exact .inr (.inr (.inl ⟨t, h, hd ▸ hl, e, hr.trans (bind_err he)⟩))
      · rw [hd] at ho
        subst ho
        have hr' := hr.trans (bind_ok hok)
        by_cases heq : o = oui
        · subst heq
          rw [if_neg (by simp)] at hr'
          exact .inr (.inr (.inr (.inr ⟨u, h, hr'⟩)))
        · rw [if_pos heq] at hr'
          exact .inr (.inr (.inr (.inl ⟨o, u, h, heq, hr'⟩)))
    · rw [if_pos (fun hh => hv ((vendor_iff c).1 hh))] at hr
      exact .inr (.inl ⟨c, t, h, hv, hr⟩)

/-- The two monads agree about a function. -/
private def Agrees {α : Type} (x : OffRd α) (p : Rd α) : Prop :=
  ∀ inp off, p inp off = (x inp off).1.map fun a => (a, (x inp off).2)

omit [ScrollRule] in
private theorem Agrees.fail {α : Type} (e : Err) : Agrees (OffRd.fail e : OffRd α) (Rd.fail e) := fun _ _ => rfl

omit [ScrollRule] in
private theorem Agrees.pure {α : Type} (a : α) : Agrees (pure a : OffRd α) (pure a : Rd α) := fun _ _ => rfl

private theorem Agrees.gread {α : Type} (r : Reader α) : Agrees (OffRd.gread r) (Rd.gread r) := by
  intro inp off
  unfold OffRd.gread
  cases Rd.gread r inp off <;> rfl

omit [ScrollRule] in
private theorem Agrees.bind {α β : Type} {x : OffRd α} {p : Rd α} {f : α → OffRd β} {g : α → Rd β}
    (h : Agrees x p) (hf : ∀ a, Agrees (f a) (g a)) : Agrees (x >>= f) (p >>= g) := by
  intro inp off
  have := h inp off
  show Rd.bind p g inp off = _
  simp only [Rd.bind, this]
  rcases hx : x inp off with ⟨r, off'⟩
  cases r with
  | ok a => rw [bind_ok hx]; exact hf a inp off'
  | err e => rw [bind_err hx]; rfl
  | panic =>
    have : (x >>= f) inp off = (.panic, off') := by
      show (match x inp off with
        | (.ok a, off') => f a inp off'
        | (.err e, off') => (.err e, off')
        | (.panic, off') => (.panic, off')) = _
      rw [hx]
    rw [this]; rfl

/-- The result of the check is that of the model in which errors carry no offset, and so is the offset after a success:
all that is known of `stripAndCheckVendorActionHeader` holds here. -/
theorem c79_strip_model (oui : Arr 3) (inp : Bytes) (off : Nat) :
    let r := OffRd.stripAndCheckVendorActionHeader oui inp off
    stripAndCheckVendorActionHeader oui inp off = r.1.map fun _ => ((), r.2) := by
  refine Agrees.bind (Agrees.gread _) (fun c => ?_) inp off
  split
  · exact Agrees.fail _
  · refine Agrees.bind (Agrees.gread _) fun o => ?_
    split
    · exact Agrees.fail _
    · exact Agrees.pure _

/-- Where the check leaves the offset: at the end of the input it is not moved; behind the category byte when that is
another category or fewer than three bytes follow; behind the OUI in all other cases, whether the OUI is the expected
one (the only case of success) or not. -/
theorem c79_strip_offset (oui : Arr 3) (inp : Bytes) (off : Nat) :
    let r := OffRd.stripAndCheckVendorActionHeader oui inp off
    r.1 ≠ .panic ∧
    (r.1 = .ok () ↔ ∃ p, inp.drop off = 127 :: (oui.val ++ p)) ∧
    (inp.length ≤ off → r.2 = off) ∧
    (∀ c t, inp.drop off = c :: t → c ≠ 127 ∨ t.length < 3 → r.2 = off + 1) ∧
    (∀ t, inp.drop off = 127 :: t → 3 ≤ t.length → r.2 = off + 4) := by
  intro r
  rcases strip_cases oui inp off with ⟨h, e, hr⟩ | ⟨c, t, h, hc, hr⟩ | ⟨t, h, ht, e, hr⟩ | ⟨o, t, h, ho, hr⟩ |
    ⟨t, h, hr⟩ <;> (change r = _ at hr; rw [hr, h])
  · refine ⟨by simp, by simp, by simp, by simp, by simp⟩
  · refine ⟨by simp, ?_, ?_, ?_, ?_⟩
    · constructor
      · intro h; cases h
      · rintro ⟨p, e⟩
        cases e
        exact absurd rfl hc
    · intro hl; rw [List.drop_eq_nil_of_le hl] at h; cases h
    · intros; rfl
    · intro t' e; cases e; exact absurd rfl hc
  · refine ⟨by simp, ?_, ?_, ?_, ?_⟩
    · constructor
      · intro h; cases h
      · rintro ⟨p, e⟩
        cases e
        simp at ht
        omega
    · intro hl; rw [List.drop_eq_nil_of_le hl] at h; cases h
    · intros; rfl
    · intro t' e; cases e; intro; omega
  · refine ⟨by simp, ?_, ?_, ?_, ?_⟩
    · constructor
      · intro h; cases h
      · rintro ⟨p, e⟩
        simp only [List.cons.injEq, true_and] at e
        have := congrArg (List.take 3) e
        rw [List.take_append_of_le_length (by simp), List.take_append_of_le_length (by simp),
          List.take_of_length_le (by simp), List.take_of_length_le (by simp)] at this
        exact absurd (Subtype.ext this) ho
    · intro hl; rw [List.drop_eq_nil_of_le hl] at h; cases h
    · rintro c' t' e (hc | hl)
      · cases e; exact absurd rfl hc
      · cases e; simp at hl; omega
    · intros; rfl
  · refine ⟨by simp, ⟨fun _ => ⟨t, rfl⟩, fun _ => rfl⟩, ?_, ?_, ?_⟩
    · intro hl; rw [List.drop_eq_nil_of_le hl] at h; cases h
    · rintro c' t' e (hc | hl)
      · cases e; exact absurd rfl hc
      · cases e; simp at hl; omega
    · intros; rfl

/-- Violation: the check does not leave the offset alone when it fails.  It is moved by every failing check which finds
a byte at the offset. -/
theorem c79_strip_moves (oui : Arr 3) (inp : Bytes) (off : Nat) (h : off < inp.length)
    (hf : ¬ ∃ p, inp.drop off = 127 :: (oui.val ++ p)) :
    (∃ e, (OffRd.stripAndCheckVendorActionHeader oui inp off).1 = .err e) ∧
    off < (OffRd.stripAndCheckVendorActionHeader oui inp off).2 ∧
    ¬ Spec.KeepsOffset (OffRd.stripAndCheckVendorActionHeader oui) := by
  have key : (∃ e, (OffRd.stripAndCheckVendorActionHeader oui inp off).1 = .err e) ∧
      off < (OffRd.stripAndCheckVendorActionHeader oui inp off).2 := by
    rcases strip_cases oui inp off with ⟨h', _⟩ | ⟨c, t, _, _, hr⟩ | ⟨t, _, _, e, hr⟩ | ⟨o, t, _, _, hr⟩ |
      ⟨t, h', _⟩
    · have := congrArg List.length h'
      simp at this; omega
    · rw [hr]; exact ⟨⟨_, rfl⟩, by simp⟩
    · rw [hr]; exact ⟨⟨_, rfl⟩, by simp⟩
    · rw [hr]; exact ⟨⟨_, rfl⟩, by simp⟩
    · exact absurd ⟨t, h'⟩ hf
  refine ⟨key.1, key.2, fun hk => ?_⟩
  obtain ⟨e, he⟩ := key.1
  have := hk inp off e he
  have := key.2
  omega

/-- Violation: looking for one of two OUIs by calling the check for one after the other finds the second one never
where the first check has moved the offset, although checking for the second one alone succeeds. -/
theorem c79_second_oui_missed :
    ∃ (a b : Arr 3) (inp : Bytes), a ≠ b ∧
      (OffRd.stripAndCheckVendorActionHeader b inp 0).1 = .ok () ∧
      Spec.firstOui OffRd.stripAndCheckVendorActionHeader [a, b] inp 0 = none ∧
      Spec.firstOui OffRd.stripAndCheckVendorActionHeader [b, a] inp 0 = some b := by
  refine ⟨⟨[0, 0x10, 0x18], rfl⟩, ⟨[0, 0x17, 0xf2], rfl⟩, [127, 0, 0x17, 0xf2, 9, 9, 9, 9], ?_⟩
  rename_i i; obtain ⟨s⟩ := i; cases s <;> decide +kernel

/-- Violation: a check that was moved can even succeed on the payload: here the body is that of another vendor, and
its payload begins with what looks like a header. -/
theorem c79_payload_taken_for_header :
    ∃ (a b : Arr 3) (inp : Bytes), a ≠ b ∧
      (∃ e, (OffRd.stripAndCheckVendorActionHeader a inp 0).1 = .err e) ∧
      (∃ e, (OffRd.stripAndCheckVendorActionHeader b inp 0).1 = .err e) ∧
      Spec.firstOui OffRd.stripAndCheckVendorActionHeader [a, b] inp 0 = some b := by
  refine ⟨⟨[0, 0x10, 0x18], rfl⟩, ⟨[0, 0x17, 0xf2], rfl⟩, [127, 0x50, 0x6f, 0x9a, 127, 0, 0x17, 0xf2], ?_⟩
  rename_i i; obtain ⟨s⟩ := i
  cases s <;> exact ⟨by decide, ⟨.badInput, by decide +kernel⟩, ⟨.badInput, by decide +kernel⟩, by decide +kernel⟩

/-- With a copy of the offset for each check, an OUI of the list is found exactly when the header carries one of them,
and it is the one the header carries.  What is missing: with the offset itself, as the signature suggests. -/
theorem c79_copies_partial (ouis : List (Arr 3)) (inp : Bytes) (off : Nat) (o : Arr 3) :
    Spec.firstOui (fun o inp off => ((OffRd.stripAndCheckVendorActionHeader o inp off).1, off)) ouis inp off = some o ↔
      o ∈ ouis ∧ ∃ p, inp.drop off = 127 :: (o.val ++ p) := by
  induction ouis with
  | nil => simp [Spec.firstOui]
  | cons a l ih =>
    have hs := c79_strip_offset a inp off
    simp only at hs
    simp only [Spec.firstOui]
    cases hr : (OffRd.stripAndCheckVendorActionHeader a inp off).1 with
    | ok u =>
      rw [hr] at hs
      obtain ⟨p, hp⟩ := hs.2.1.1 rfl
      simp only
      constructor
      · intro h; cases h
        exact ⟨by simp, p, hp⟩
      · rintro ⟨_, q, hq⟩
        rw [hp] at hq
        simp only [List.cons.injEq, true_and] at hq
        have := congrArg (List.take 3) hq
        rw [List.take_append_of_le_length (by simp), List.take_append_of_le_length (by simp),
          List.take_of_length_le (by simp), List.take_of_length_le (by simp)] at this
        rw [Subtype.ext this]
    | panic => exact absurd hr hs.1
    | err e =>
      rw [hr] at hs
      simp only
      rw [ih]
      constructor
      · rintro ⟨h, hp⟩; exact ⟨List.mem_cons_of_mem _ h, hp⟩
      · rintro ⟨h, hp⟩
        refine ⟨?_, hp⟩
        rcases List.mem_cons.1 h with rfl | h
        · have := hs.2.1.2 hp
          cases this
        · exact h

/-! ## Writing the header -/

/-- The result of appending the header is that of the model in which errors carry nothing. -/
theorem c79_append_model (oui : Arr 3) (buf : Bytes) (off : Nat) :
    let r := OffWr.appendVendorActionHeader oui buf off
    appendVendorActionHeader oui buf off = r.1.map fun _ => ((), r.2) := by
  intro r
  have hr : r = OffWr.appendVendorActionHeader oui buf off := rfl
  simp only [OffWr.appendVendorActionHeader, OffWr.andThen, OffWr.gwrite] at hr
  show Wr.bind _ _ _ _ = _
  simp only [Wr.bind]
  cases h1 : Wr.gwrite (writeU8 CategoryCode.VendorSpecific.intoBits) buf off with
  | err e => rw [h1] at hr; rw [hr]; rfl
  | panic => rw [h1] at hr; rw [hr]; rfl
  | ok u =>
    rw [h1] at hr
    simp only at hr ⊢
    cases h2 : Wr.gwrite (writeBytes oui.val) u.2.1 u.2.2 with
    | err e => rw [h2] at hr; rw [hr]; rfl
    | panic => rw [h2] at hr; rw [hr]; rfl
    | ok v => rw [h2] at hr; rw [hr]; rfl

private theorem badOff_lt {off n : Nat} (h : off < n) : badOff off n = false := by
  unfold badOff; split <;> simp <;> omega

/-- Appending the header: with four bytes left it is written and the offset is moved by four; with one to three bytes
left the call fails, and the category byte has been written and the offset moved by one; with none left nothing
happens. -/
theorem c79_append_offset (oui : Arr 3) (buf : Bytes) (off : Nat) :
    let r := OffWr.appendVendorActionHeader oui buf off
    (off + 4 ≤ buf.length → r = (.ok (), buf.take off ++ 127 :: (oui.val ++ buf.drop (off + 4)), off + 4)) ∧
    (off < buf.length → buf.length < off + 4 →
      (∃ e, r.1 = .err e) ∧ r.2 = (buf.take off ++ 127 :: buf.drop (off + 1), off + 1)) ∧
    (buf.length ≤ off → (∃ e, r.1 = .err e) ∧ r.2 = (buf, off)) := by
  intro r
  have first (h : off < buf.length) : Wr.gwrite (writeU8 CategoryCode.VendorSpecific.intoBits) buf off =
      .ok ((), buf.take off ++ 127 :: buf.drop (off + 1), off + 1) := by
    simp only [Wr.gwrite, badOff_lt h, writeU8, writeBytes]
    rw [if_neg (by simp), if_pos (by simp; omega)]
    simp
    rfl
  have hlen (h : off < buf.length) : (buf.take off ++ (127 : Byte) :: buf.drop (off + 1)).length = buf.length := by
    simp; omega
  have hdrop (h : off < buf.length) :
      (buf.take off ++ (127 : Byte) :: buf.drop (off + 1)).drop (off + 1) = buf.drop (off + 1) := by
    rw [List.drop_append, List.drop_eq_nil_of_le (by simp; omega), show off + 1 - (buf.take off).length = 1 by simp; omega]
    rfl
  have htake (h : off < buf.length) :
      (buf.take off ++ (127 : Byte) :: buf.drop (off + 1)).take (off + 1) = buf.take off ++ [127] := by
    rw [List.take_append, List.take_of_length_le (by simp; omega), show off + 1 - (buf.take off).length = 1 by simp; omega]
    rfl
  refine ⟨fun h => ?_, fun h h' => ?_, fun h => ?_⟩
  · have h1 : off < buf.length := by omega
    have second : Wr.gwrite (writeBytes oui.val) (buf.take off ++ 127 :: buf.drop (off + 1)) (off + 1) =
        .ok ((), buf.take off ++ 127 :: (oui.val ++ buf.drop (off + 4)), off + 4) := by
      simp only [Wr.gwrite, hlen h1, badOff_lt (show off + 1 < buf.length by omega), hdrop h1, htake h1, writeBytes]
      rw [if_neg (by simp), if_pos (by simp; omega)]
      simp
    show OffWr.andThen _ _ _ _ = _
    simp only [OffWr.andThen, OffWr.gwrite, first h1, second]
  · have second : ∃ e, Wr.gwrite (writeBytes oui.val) (buf.take off ++ 127 :: buf.drop (off + 1)) (off + 1) =
        .err e := by
      simp only [Wr.gwrite, hlen h, hdrop h, writeBytes]
      split
      · exact ⟨_, rfl⟩
      · rw [if_neg (by simp; omega)]
        exact ⟨_, rfl⟩
    obtain ⟨e, second⟩ := second
    have : r = (.err e, buf.take off ++ 127 :: buf.drop (off + 1), off + 1) := by
      show OffWr.andThen _ _ _ _ = _
      simp only [OffWr.andThen, OffWr.gwrite, first h, second]
    rw [this]
    exact ⟨⟨e, rfl⟩, rfl⟩
  · have : ∃ e, Wr.gwrite (writeU8 CategoryCode.VendorSpecific.intoBits) buf off = .err e := by
      simp only [Wr.gwrite, writeU8, writeBytes]
      split
      · exact ⟨_, rfl⟩
      · rw [if_neg (by simp; omega)]
        exact ⟨_, rfl⟩
    obtain ⟨e, he⟩ := this
    have : r = (.err e, buf, off) := by
      show OffWr.andThen _ _ _ _ = _
      simp only [OffWr.andThen, OffWr.gwrite, he]
    rw [this]
    exact ⟨⟨e, rfl⟩, rfl⟩

/-- Violation: an append that fails leaves a category byte in the buffer and the offset behind it, so that trying again
with a longer buffer at that offset writes a second category byte behind the first. -/
theorem c79_append_twice :
    ∃ (oui : Arr 3) (buf more : Bytes),
      let r := OffWr.appendVendorActionHeader oui buf 0
      let r' := OffWr.appendVendorActionHeader oui (r.2.1 ++ more) r.2.2
      (∃ e, r.1 = .err e) ∧ r'.1 = .ok () ∧ r'.2 = (127 :: 127 :: oui.val, 5) := by
  refine ⟨⟨[0, 0x17, 0xf2], rfl⟩, [0, 0, 0], [0, 0], ?_⟩
  rename_i i; obtain ⟨s⟩ := i
  cases s <;> exact ⟨⟨.tooBig, by decide +kernel⟩, by decide +kernel, by decide +kernel⟩

/-- A header in the middle of a buffer: found, with the offset behind it. -/
example : let _ : ScrollRule := ⟨true⟩
    OffRd.stripAndCheckVendorActionHeader ⟨[0, 0x17, 0xf2], rfl⟩ [1, 2, 127, 0, 0x17, 0xf2, 8] 2 = (.ok (), 6) := by
  decide +kernel

/-- A header cut short: an error, with the offset behind the category. -/
example : let _ : ScrollRule := ⟨false⟩
    (OffRd.stripAndCheckVendorActionHeader ⟨[0, 0x17, 0xf2], rfl⟩ [127, 0, 0x17] 0).2 = 1 := by
  decide +kernel

/-- A header written into the middle of a buffer. -/
example : let _ : ScrollRule := ⟨true⟩
    OffWr.appendVendorActionHeader ⟨[0, 0x17, 0xf2], rfl⟩ [1, 2, 3, 4, 5, 6, 7] 1 =
      (.ok (), [1, 127, 0, 0x17, 0xf2, 6, 7], 5) := by
  decide +kernel

end Verif
