import Verif.Basic.Tactics
import Verif.Basic.Inversion
import Verif.Lemmas.Elements
import Verif.Model.Frames.Mgmt
import Verif.Spec.Frames
/-!
# Helper lemmas for frames
-/
namespace Verif

variable [ScrollRule]

/-! ## Optional fields -/

theorem RdAt.opt_true {α : Type} {r : Reader α} {inp : Bytes} {a : α} {n : Nat} {c : Bool} (hc : c = true)
    (h : r inp = .ok (a, n)) (hne : slack ≤ inp.length) : RdAt (Rd.opt c r) inp (some a) n := by
  subst hc
  intro pre
  have := RdAt.gread h hne pre
  show Rd.bind (Rd.gread r) (fun a => (Pure.pure (some a) : Rd (Option α))) _ _ = _
  simp only [Rd.bind, this]
  rfl

theorem RdAt.opt_false {α : Type} {r : Reader α} {inp : Bytes} {c : Bool} (hc : c = false) :
    RdAt (Rd.opt c r) inp none 0 := by
  subst hc
  exact RdAt.pure

theorem Rd.Safe.opt {α : Type} {r : Reader α} {c : Bool} (h : SafeReader r) : Rd.Safe (Rd.opt c r) := by
  cases c
  · exact Rd.Safe.pure
  · apply Rd.Safe.bind (Rd.Safe.gread h); intro _
    exact Rd.Safe.pure

theorem Rd.Fixed.opt {α : Type} {r : Reader α} {c : Bool} {n : Nat} (h : FixedReader r n) (hn : 0 < n) :
    Rd.Fixed (Rd.opt c r) (if c then n else 0) := by
  cases c
  · exact Rd.Fixed.pure
  · apply Rd.Fixed.cast
    · apply Rd.Fixed.bind (Rd.Fixed.gread h hn); intro _
      exact Rd.Fixed.pure
    · simp

theorem Parses.opt {k : Nat} {c : Bool} :
    Parses (Rd.opt c (readArr k)) (fun o bs _ => o.isSome = c ∧ bs = Spec.optWire o) := by
  cases c
  · exact Parses.pure.imp fun o bs rest h => by obtain ⟨rfl, rfl⟩ := h; exact ⟨rfl, rfl⟩
  · have := Parses.bind (Parses.gread' (readArr_parses k)) (fun a => Parses.pure (x := some a))
    refine Parses.imp this fun o bs rest h => ?_
    obtain ⟨a, bs1, bs2, rfl, rfl, rfl, rfl⟩ := h
    simp

theorem WEmits.opt {k : Nat} (o : Option (Arr k)) (hk : 0 < k) :
    WEmits (Wr.opt o fun x => writeBytes x.val) () (Spec.optWire o) (Spec.optWire o).length := by
  cases o with
  | none => exact WEmits.pure
  | some x => exact WEmits.gwrite_pos (Emits.bytes _) (by simpa using hk)

theorem WEmits.optI {k : Nat} {β : Type} {o : Option (Arr k)} {f : Unit → Wr β} {b : β} {bs : Bytes}
    {n : Nat} (h2 : WEmits (f ()) b bs n) (hk : 0 < k) :
    WEmits ((Wr.opt o fun x => writeBytes x.val) >>= f) b (Spec.optWire o ++ bs)
      ((Spec.optWire o).length + n) :=
  WEmits.seq (WEmits.opt o hk) h2

theorem RdAt.optI {k : Nat} {β : Type} {o : Option (Arr k)} {c : Bool} {f : Option (Arr k) → Rd β}
    {b : β} {rest : Bytes} {m : Nat} (hc : o.isSome = c) (h : RdAt (f o) rest b m) (hk : 0 < k) :
    RdAt (Rd.opt c (readArr k) >>= f) (Spec.optWire o ++ rest) b ((Spec.optWire o).length + m) := by
  have hs := slack_le
  cases o with
  | none =>
    simp only [Spec.optWire_none, List.nil_append, List.length_nil, Nat.zero_add]
    exact RdAt.bind0 (RdAt.opt_false hc.symm) h
  | some x =>
    apply RdAt.bind
    · exact (RdAt.opt_true hc.symm (readArr_append x rest) (by simp; omega)).cast (by simp)
    · exact h

/-! ## Elements -/

omit [ScrollRule] in
theorem readElements_parses : ParsesR readElements (fun x bs rest => bs = x ∧ rest = []) := by
  intro inp a n h
  simp only [readElements, Res.ok.injEq, Prod.mk.injEq] at h
  obtain ⟨rfl, rfl⟩ := h
  exact ⟨inp, [], by simp, rfl, rfl, rfl⟩

omit [ScrollRule] in
theorem readElements_safe : SafeReader readElements := by
  intro inp
  simp [readElements]

/-- The last step of a body: the elements. -/
theorem RdAt.elements {β : Type} {f : Bytes → Rd β} {e : Bytes} {b : β} (hs : slack ≤ e.length)
    (h : RdAt (f e) [] b 0) : RdAt (Rd.gread readElements >>= f) e b e.length := by
  have h1 : RdAt (Rd.gread readElements) (e ++ []) e e.length := by
    rw [List.append_nil]; exact RdAt.gread rfl hs
  have := RdAt.bind h1 h
  simpa using this

theorem Rd.Needs.elements {β : Type} {f : Bytes → Rd β} :
    Rd.Needs (Rd.gread readElements >>= f) slack := by
  apply Rd.Needs.left
  intro inp off hl
  refine ⟨.badOffset, ?_⟩
  simp only [Rd.gread, badOff_eq]
  rw [if_pos (by simpa using hl)]

omit [ScrollRule] in
/-- `Rd.lift` neither advances nor reads. -/
theorem Rd.Adv.lift_ne_panic {α : Type} {x : Res α} (h : x ≠ .panic) : Rd.Adv (Rd.lift x) 0 := by
  intro inp off
  cases x with
  | ok a => exact .inr ⟨a, rfl⟩
  | err e => exact .inl ⟨e, rfl⟩
  | panic => exact absurd rfl h

omit [ScrollRule] in
/-- A check: error or nothing. -/
theorem Rd.Needs.ite_fail {α : Type} {c : Prop} [Decidable c] {e : Err} {p : Rd α} {n : Nat}
    (h : Rd.Needs p n) : Rd.Needs (if c then Rd.fail e else p) n := by
  split
  · intro inp off _; exact ⟨e, rfl⟩
  · exact h

omit [ScrollRule] in
theorem Rd.Adv.ite_fail {α : Type} {c : Prop} [Decidable c] {e : Err} {p : Rd α} {n : Nat}
    (h : Rd.Adv p n) : Rd.Adv (if c then Rd.fail e else p) n := by
  split
  · intro inp off; exact .inl ⟨e, rfl⟩
  · exact h

omit [ScrollRule] in
theorem Rd.Safe.ite_fail {α : Type} {c : Prop} [Decidable c] {e : Err} {p : Rd α}
    (h : Rd.Safe p) : Rd.Safe (if c then Rd.fail e else p) := by
  split
  · exact Rd.Safe.fail
  · exact h

/-! ## Mesh peering action bodies -/

theorem checkSelfProtected_adv (c : SelfProtectedActionCode) : Rd.Adv (checkSelfProtected c) 2 := by
  apply Rd.Adv.bind (k := 1) (m := 1) (Rd.Adv.gread (readLE_fixed 8).adv); intro _
  apply Rd.Adv.ite_fail
  apply Rd.Adv.bind (k := 1) (m := 0) (Rd.Adv.gread (readLE_fixed 8).adv); intro _
  apply Rd.Adv.ite_fail
  exact Rd.Adv.pure

theorem checkSelfProtected_safe (c : SelfProtectedActionCode) : Rd.Safe (checkSelfProtected c) := by
  apply Rd.Safe.bind (Rd.Safe.gread (readLE_fixed 8).safe); intro _
  apply Rd.Safe.ite_fail
  apply Rd.Safe.bind (Rd.Safe.gread (readLE_fixed 8).safe); intro _
  apply Rd.Safe.ite_fail
  exact Rd.Safe.pure

theorem checkSelfProtected_ok (c : SelfProtectedActionCode) (v : Byte) (hv : SelfProtectedActionCode.fromBits v = c)
    {β : Type} {f : Unit → Rd β} {rest : Bytes} {b : β} {m : Nat} (h : RdAt (f ()) rest b m) :
    RdAt (checkSelfProtected c >>= f) (15 :: v :: rest) b (2 + m) := by
  have hs := slack_le
  have : RdAt (checkSelfProtected c) ([15, v] ++ rest) () 2 := by
    apply RdAt.cast
    · apply RdAt.u8
      rw [if_neg (by decide)]
      apply RdAt.u8
      rw [if_neg (by simpa using hv)]
      exact RdAt.pure
    · rfl
  exact RdAt.bind (bs := [15, v]) this h

theorem checkSelfProtected_parses (c : SelfProtectedActionCode) (v : Byte)
    (hv : ∀ a, SelfProtectedActionCode.fromBits a = c → a = v) :
    Parses (checkSelfProtected c) (fun _ bs _ => bs = [15, v]) := by
  refine Parses.imp (Parses.bind (Parses.gread' readU8_parses) fun _ =>
    Parses.ite (fun _ => Parses.fail (Q := fun _ _ _ => False)) fun _ =>
    Parses.bind (Parses.gread' readU8_parses) fun _ =>
    Parses.ite (fun _ => Parses.fail (Q := fun _ _ _ => False)) fun _ => Parses.pure) ?_
  rintro u bs rest ⟨a, _, _, rfl, rfl, ⟨_, h⟩ | ⟨h1, b, _, _, rfl, rfl, ⟨_, h⟩ | ⟨h2, rfl, rfl⟩⟩⟩
  · exact h.elim
  · exact h.elim
  · have ha : a = 15 := by
      have e := Classical.not_not.1 h1
      have := CategoryCode.intoBits_fromBits a
      rw [e] at this
      exact this.symm
    have hb : b = v := hv b (Classical.not_not.1 h2)
    subst ha hb
    rfl

end Verif
