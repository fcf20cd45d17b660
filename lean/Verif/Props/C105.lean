import Verif.Props.C98
/-!
# C105: nothing is sent to a station that sleeps

A station says in every data frame whether it is going to sleep (9.2.4.1.7, 11.2.3.2 of the standard), and sleeps only after
an acknowledgement.  The access point keeps messages for stations that said so, and sends them when it hears otherwise.
Frames of the stations and acknowledgements may be lost; those of the access point are not (for which see C98).  The
stations are not in the crate; they are written here with its functions.
-/
namespace Verif

namespace Spec

/-- What happens: a station sends a data frame, the access point gets a message for a station, or something else is heard by
the access point. -/
inductive DozeEvent where
  | tell (h : DataFrameHeader) (payload : Option Bytes) (frameLost ackLost : Bool)
  | message (h : DataFrameHeader) (payload : Bytes)
  | other (bytes : Bytes)

/-! ## What should happen -/

/-- What a station said last, of what was heard. -/
def dozeSaid (s : Mac) : List DozeEvent → Bool → Bool
  | [], x => x
  | .tell h _ lost _ :: l, x => dozeSaid s l (if h.address_2 = s ∧ lost = false then h.fcf_flags.bits.getLsbD 4 else x)
  | _ :: l, x => dozeSaid s l x

/-- The messages for a station. -/
def dozeFor (s : Mac) : List DozeEvent → List Bytes
  | [] => []
  | .message h p :: l => if h.address_1 = s then p :: dozeFor s l else dozeFor s l
  | _ :: l => dozeFor s l

/-- Headers agree with their flags and payloads with their subtypes (C27, C49); stations send to the access point; something
else is not a data frame to the access point. -/
def DozeEvent.Fine [Crc32] (ap : Mac) (fcs : Bool) : DozeEvent → Prop
  | .tell h p _ _ => ValidData h ∧ HeaderConsistent h ∧ (p.isSome ↔ payloadSubtype h.subtype) ∧ h.address_1 = ap
  | .message h _ => ValidData h ∧ HeaderConsistent h ∧ payloadSubtype h.subtype
  | .other b => (fcs = true → 4 ≤ b.length) ∧
    ∀ frame, b = withFcs fcs frame → ¬ (IsType 2 frame ∧ (frame.drop 4).take 6 = ap.val)

/-! ## The stations -/

/-- What the access point believes and keeps; who sleeps, and what the stations have got. -/
structure Dozers where
  believed : Mac → Bool
  kept : Mac → List (DataFrameHeader × Bytes)
  asleep : Mac → Bool
  got : Mac → List Bytes

/-- In the beginning all are awake. -/
def Dozers.start : Dozers := ⟨fun _ => false, fun _ => [], fun _ => false, fun _ => []⟩

/-- One value changes. -/
def setAt {α : Type} (f : Mac → α) (s : Mac) (x : α) : Mac → α := fun y => if y = s then x else f y

variable [ScrollRule] [Crc32]

/-- A data frame is heard. -/
def hearData (fcs : Bool) (bytes : Bytes) : Res (Option (DataFrame Bytes)) :=
  match matchFrames bytes (if fcs then some true else none) [armOf dataFrameKind readDataFrame id] with
  | .panic => .panic
  | .err _ => .ok none
  | .ok (_, f) => .ok (some f)

/-- The access point sends messages; a station hears them if it does not sleep. -/
def Dozers.deliver (fcs : Bool) (buf : Bytes) : List (DataFrameHeader × Bytes) → Dozers → Res Dozers
  | [], d => .ok d
  | (h, p) :: l, d => do
    let (out, n) ← writeDataFrame ⟨h, some (bytesObj p)⟩ fcs buf
    let heard ← (if d.asleep h.address_1 then .ok none else hearData fcs (out.take n))
    let d := (match heard with
      | some f =>
        if f.header.address_1 = h.address_1 then
          { d with got := setAt d.got h.address_1 (d.got h.address_1 ++ f.payload.toList) }
        else d
      | none => d)
    d.deliver fcs buf l

/-- The access point hears something: the new state, and whom it acknowledges. -/
def Dozers.hear (ap : Mac) (fcs : Bool) (d : Dozers) (bytes : Bytes) : Res (Dozers × Option (Mac × Bool)) := do
  match ← hearData fcs bytes with
  | some f =>
    if f.header.address_1 = ap then
      pure ({ d with believed := setAt d.believed f.header.address_2 f.header.fcf_flags.pwr_mgmt },
        some (f.header.address_2, f.header.fcf_flags.pwr_mgmt))
    else pure (d, none)
  | none => pure (d, none)

/-- One event. -/
def Dozers.step (ap : Mac) (fcs : Bool) (buf : Bytes) (d : Dozers) : DozeEvent → Res Dozers
  | .tell h p frameLost ackLost => do
    let d := { d with asleep := setAt d.asleep h.address_2 false }
    let (out, n) ← writeDataFrame ⟨h, p.map bytesObj⟩ fcs buf
    if frameLost then pure d
    else do
      let (d, heard) ← d.hear ap fcs (out.take n)
      match heard with
      | none => pure d
      | some (s, sleeps) => do
        let ack ← sendAck fcs buf s
        let acked ← (if ackLost then .ok false else isAckFor h.address_2 fcs ack)
        let d := (if acked ∧ h.fcf_flags.pwr_mgmt then { d with asleep := setAt d.asleep h.address_2 true } else d)
        if sleeps then pure d
        else Dozers.deliver fcs buf (d.kept s) { d with kept := setAt d.kept s [] }
  | .message h p =>
    if d.believed h.address_1 then
      pure { d with kept := setAt d.kept h.address_1 (d.kept h.address_1 ++ [(h, p)]) }
    else d.deliver fcs buf [(h, p)]
  | .other b => do
    let (d, _) ← d.hear ap fcs b
    pure d

/-- One after the other. -/
def Dozers.run (ap : Mac) (fcs : Bool) (buf : Bytes) : List DozeEvent → Dozers → Res Dozers
  | [], d => .ok d
  | e :: l, d => do
    let d ← d.step ap fcs buf e
    d.run ap fcs buf l

end Spec

open Spec

variable [ScrollRule] [Crc32]

/-! ## Frames -/

/-- A data frame is written and heard, with this buffer. -/
private def Passes (fcs : Bool) (buf : Bytes) (h : DataFrameHeader) (p : Option Bytes) : Prop :=
  ∃ out n, writeDataFrame ⟨h, p.map bytesObj⟩ fcs buf = .ok (out, n) ∧ hearData fcs (out.take n) = .ok (some ⟨h, p⟩)

private theorem passes (fcs : Bool) (h : DataFrameHeader) (p : Option Bytes) (hv : ValidData h) (hc : HeaderConsistent h)
    (hp : p.isSome ↔ payloadSubtype h.subtype) : ∃ size, ∀ buf : Bytes, size ≤ buf.length → Passes fcs buf h p := by
  obtain ⟨size, hd⟩ := c65_data_partial ⟨h, p.map bytesObj⟩ hv hc (by
      show (p.map bytesObj).isSome ↔ _
      rw [Option.isSome_map]
      exact hp) p (by
      cases p with
      | none => trivial
      | some p => exact ⟨_, Emits.bytes p⟩) fcs id [] [] (by simp)
  refine ⟨size, fun buf hb => ?_⟩
  obtain ⟨out, n, h1, h2⟩ := hd buf hb
  refine ⟨out, n, h1, ?_⟩
  unfold hearData
  simp only [List.nil_append] at h2
  rw [h2]
  rfl

/-- Messages of one station that is awake. -/
private theorem deliver_all (fcs : Bool) (buf : Bytes) (s : Mac) (l : List (DataFrameHeader × Bytes)) (d : Dozers)
    (hl : ∀ x ∈ l, x.1.address_1 = s ∧ Passes fcs buf x.1 (some x.2)) (hs : d.asleep s = false) :
    d.deliver fcs buf l = .ok { d with got := setAt d.got s (d.got s ++ l.map Prod.snd) } := by
  induction l generalizing d with
  | nil =>
    simp only [Dozers.deliver, List.map_nil, List.append_nil]
    congr 1
    obtain ⟨a, b, c, g⟩ := d
    simp only [Dozers.mk.injEq, true_and]
    funext y
    by_cases h : y = s <;> simp [setAt, h]
  | cons x l ih =>
    obtain ⟨h, p⟩ := x
    obtain ⟨h1, out, n, h2, h3⟩ := hl (h, p) (.head _)
    have h1 : h.address_1 = s := h1
    subst h1
    have h2 : writeDataFrame ⟨h, some (bytesObj p)⟩ fcs buf = .ok (out, n) := h2
    simp only [Dozers.deliver, h2, Res.ok_bind, hs, Bool.false_eq_true, if_false, h3, if_true]
    rw [ih _ (fun x hx => hl x (.tail _ hx)) (by exact hs)]
    congr 1
    simp only [Dozers.mk.injEq, true_and]
    funext y
    by_cases e : y = h.address_1 <;> simp [setAt, e]

/-! ## The invariant -/

/-- No message is lost, only those whom the access point believes so sleep, and nothing is kept for the others. -/
private structure Inv (fcs : Bool) (buf : Bytes) (d : Dozers) (said : Mac → Bool) (msgs : Mac → List Bytes) : Prop where
  all : ∀ s, d.got s ++ (d.kept s).map Prod.snd = msgs s
  safe : ∀ s, d.asleep s = true → d.believed s = true
  said : ∀ s, d.believed s = said s
  awake : ∀ s, d.believed s = false → d.kept s = []
  fits : ∀ s, ∀ x ∈ d.kept s, x.1.address_1 = s ∧ Passes fcs buf x.1 (some x.2)

/-- With this buffer the frames of an event can be sent. -/
private def Ready (fcs : Bool) (buf : Bytes) : DozeEvent → Prop
  | .tell h p _ _ => Passes fcs buf h p ∧ 10 ≤ buf.length
  | .message h p => Passes fcs buf h (some p)
  | .other _ => True

private theorem ready (ap : Mac) (fcs : Bool) (l : List DozeEvent) (hl : ∀ e ∈ l, e.Fine ap fcs) :
    ∃ size, ∀ buf : Bytes, size ≤ buf.length → ∀ e ∈ l, Ready fcs buf e := by
  induction l with
  | nil => exact ⟨0, fun _ _ e he => by cases he⟩
  | cons e l ih =>
    obtain ⟨size, h⟩ := ih fun x hx => hl x (.tail _ hx)
    have : ∃ size, ∀ buf : Bytes, size ≤ buf.length → Ready fcs buf e := by
      have he := hl e (.head _)
      cases e with
      | tell hd p a b =>
        obtain ⟨h1, h2, h3, -⟩ := he
        obtain ⟨size, h⟩ := passes fcs hd p h1 h2 h3
        exact ⟨max size 10, fun buf hb => ⟨h buf (by omega), by omega⟩⟩
      | message hd p =>
        obtain ⟨h1, h2, h3⟩ := he
        exact passes fcs hd (some p) h1 h2 (by simp [h3])
      | other b => exact ⟨0, fun _ _ => trivial⟩
    obtain ⟨size', h'⟩ := this
    refine ⟨max size size', fun buf hb x hx => ?_⟩
    rcases List.mem_cons.1 hx with rfl | hx
    · exact h' buf (by omega)
    · exact h buf (by omega) x hx

/-- Something else changes nothing. -/
private theorem hear_other (ap : Mac) (fcs : Bool) (d : Dozers) (b : Bytes) (h : (DozeEvent.other b).Fine ap fcs) :
    d.hear ap fcs b = .ok (d, none) := by
  obtain ⟨h1, h2⟩ := h
  obtain ⟨m1, m2⟩ := match_data fcs b
  unfold Dozers.hear hearData
  cases hm : matchFrames b (if fcs then some true else none) [armOf dataFrameKind readDataFrame id] with
  | panic => exact absurd (m1.1 hm) (fun ⟨x, y⟩ => by have := h1 x; omega)
  | err e => rfl
  | ok x =>
    obtain ⟨i, f⟩ := x
    obtain ⟨frame, n, rfl, hr⟩ := m2 i f hm
    obtain ⟨b0, rest, hw, ht, -⟩ := c49_parse _ _ _ _ hr
    simp only [withFcs, Bool.false_eq_true, if_false] at hw
    have hne : f.header.address_1 ≠ ap := by
      intro he
      refine h2 frame rfl ⟨?_, ?_⟩
      · rw [hw]
        exact ⟨_, _, rfl, ht⟩
      · rw [hw, ← he, dataHeaderWire]
        simp only [List.drop_succ_cons, List.append_assoc]
        rw [List.drop_left' (by simp), List.take_left' (by simp)]
    simp only [Res.ok_bind, if_neg hne]
    rfl

private theorem step_inv (ap : Mac) (fcs : Bool) (buf : Bytes) (d : Dozers) (said : Mac → Bool) (msgs : Mac → List Bytes)
    (hi : Inv fcs buf d said msgs) (e : DozeEvent) (he : e.Fine ap fcs) (hr : Ready fcs buf e) :
    ∃ d', d.step ap fcs buf e = .ok d' ∧ Inv fcs buf d' (fun s => dozeSaid s [e] (said s)) (fun s => msgs s ++ dozeFor s [e]) := by
  obtain ⟨i1, i2, i3, i4, i5⟩ := hi
  cases e with
  | other b =>
    refine ⟨d, ?_, by simpa [dozeFor, dozeSaid] using ⟨i1, i2, i3, i4, i5⟩⟩
    simp only [Dozers.step, hear_other ap fcs d b he, Res.ok_bind]
    rfl
  | message h p =>
    have hr : Passes fcs buf h (some p) := hr
    by_cases hb : d.believed h.address_1 = true
    · refine ⟨{ d with kept := setAt d.kept h.address_1 (d.kept h.address_1 ++ [(h, p)]) },
        by simp only [Dozers.step, hb, if_true]; rfl, ?_, i2, ?_, ?_, ?_⟩
      · intro s
        by_cases e : s = h.address_1
        · subst e
          simp only [setAt, if_true, List.map_append, List.map_cons, List.map_nil, dozeFor]
          rw [← i1, List.append_assoc]
        · simp only [setAt, if_neg e, dozeFor, if_neg (fun x => e (Eq.symm x)), List.append_nil, i1]
      · intro s; exact i3 s
      · intro s hs
        by_cases e : s = h.address_1
        · subst e
          rw [hb] at hs
          cases hs
        · simp only [setAt, if_neg e]
          exact i4 s hs
      · intro s x hx
        by_cases e : s = h.address_1
        · subst e
          simp only [setAt, if_true, List.mem_append, List.mem_singleton] at hx
          rcases hx with hx | rfl
          · exact i5 _ x hx
          · exact ⟨rfl, hr⟩
        · simp only [setAt, if_neg e] at hx
          exact i5 s x hx
    · have hb : d.believed h.address_1 = false := by simpa using hb
      have hs : d.asleep h.address_1 = false := by
        cases ha : d.asleep h.address_1 with
        | false => rfl
        | true => rw [i2 _ ha] at hb; cases hb
      refine ⟨{ d with got := setAt d.got h.address_1 (d.got h.address_1 ++ [p]) }, by
        simp only [Dozers.step, hb, Bool.false_eq_true, if_false]
        exact deliver_all fcs buf h.address_1 [(h, p)] d (by simpa using hr) hs, ?_, i2, ?_, i4, i5⟩
      · intro s
        by_cases e : s = h.address_1
        · subst e
          have := i1 h.address_1
          rw [i4 _ hb] at this ⊢
          simp only [List.map_nil, List.append_nil] at this ⊢
          simp [setAt, dozeFor, this]
        · simp only [setAt, if_neg e, dozeFor, if_neg (fun x => e (Eq.symm x)), List.append_nil, i1]
      · intro s; exact i3 s
  | tell h p fl al =>
    obtain ⟨⟨out, n, hw, hh⟩, hbuf⟩ := hr
    obtain ⟨-, -, -, hap⟩ := he
    cases fl with
    | true =>
      refine ⟨{ d with asleep := setAt d.asleep h.address_2 false }, by
        simp only [Dozers.step, hw, Res.ok_bind, if_true]; rfl, ?_, ?_, ?_, i4, i5⟩
      · intro s; simpa [dozeFor] using i1 s
      · intro s hs
        by_cases e : s = h.address_2
        · simp [setAt, e] at hs
        · simp only [setAt, if_neg e] at hs
          exact i2 s hs
      · intro s; simpa [dozeSaid] using i3 s
    | false =>
      obtain ⟨ack, ha1, ha2⟩ := c98_ack fcs buf h.address_2 h.address_2 hbuf
      have hacked : (if al = true then Res.ok false else isAckFor h.address_2 fcs ack) = .ok (!al) := by
        cases al with
        | true => rfl
        | false => simp [ha2]
      have hhear : ∀ d : Dozers, d.hear ap fcs (out.take n) = .ok
          ({ d with believed := setAt d.believed h.address_2 h.fcf_flags.pwr_mgmt },
            some (h.address_2, h.fcf_flags.pwr_mgmt)) := by
        intro d
        simp only [Dozers.hear, hh, Res.ok_bind, hap, if_true]
        rfl
      have hbit : h.fcf_flags.bits.getLsbD 4 = h.fcf_flags.pwr_mgmt := rfl
      cases hpm : h.fcf_flags.pwr_mgmt with
      | true =>
        refine ⟨{ d with
            believed := setAt d.believed h.address_2 true,
            asleep := setAt d.asleep h.address_2 (!al) }, ?_, ?_, ?_, ?_, ?_, i5⟩
        · simp only [Dozers.step, hw, Res.ok_bind, Bool.false_eq_true, if_false, hhear, ha1, hacked, hpm, if_true]
          cases al with
          | true => rfl
          | false =>
            simp only [Bool.not_false, and_self, if_true]
            show Res.ok _ = Res.ok _
            congr 2
            funext y
            by_cases e : y = h.address_2 <;> simp [setAt, e]
        · intro s; simpa [dozeFor] using i1 s
        · intro s hs
          by_cases e : s = h.address_2
          · simp [setAt, e]
          · simp only [setAt, if_neg e] at hs ⊢
            exact i2 s hs
        · intro s
          by_cases e : s = h.address_2
          · simp only [setAt, e, if_true, dozeSaid, and_self, hbit, hpm]
          · simp only [setAt, if_neg e, dozeSaid, if_neg (fun x : h.address_2 = s ∧ _ => e x.1.symm), i3]
        · intro s hs
          by_cases e : s = h.address_2
          · simp [setAt, e] at hs
          · simp only [setAt, if_neg e] at hs
            exact i4 s hs
      | false =>
        have hdel := deliver_all fcs buf h.address_2 (d.kept h.address_2) { d with
            believed := setAt d.believed h.address_2 false,
            asleep := setAt d.asleep h.address_2 false,
            kept := setAt d.kept h.address_2 [] } (i5 _) (by simp [setAt])
        refine ⟨_, by
          simp only [Dozers.step, hw, Res.ok_bind, Bool.false_eq_true, if_false, hhear, ha1, hacked, hpm, and_false]
          exact hdel, ?_, ?_, ?_, ?_, ?_⟩
        · intro s
          by_cases e : s = h.address_2
          · subst e
            simpa [setAt, dozeFor] using i1 h.address_2
          · simpa [setAt, e, dozeFor] using i1 s
        · intro s hs
          by_cases e : s = h.address_2
          · simp [setAt, e] at hs
          · simp only [setAt, if_neg e] at hs ⊢
            exact i2 s hs
        · intro s
          by_cases e : s = h.address_2
          · simp only [setAt, e, if_true, dozeSaid, and_self, hbit, hpm]
          · simp only [setAt, if_neg e, dozeSaid, if_neg (fun x : h.address_2 = s ∧ _ => e x.1.symm), i3]
        · intro s hs
          by_cases e : s = h.address_2
          · simp [setAt, e]
          · simp only [setAt, if_neg e] at hs ⊢
            exact i4 s hs
        · intro s x hx
          by_cases e : s = h.address_2
          · simp [setAt, e] at hx
          · simp only [setAt, if_neg e] at hx
            exact i5 s x hx

omit [ScrollRule] [Crc32] in
private theorem said_cons (s : Mac) (e : DozeEvent) (l : List DozeEvent) (x : Bool) :
    dozeSaid s (e :: l) x = dozeSaid s l (dozeSaid s [e] x) := by
  cases e <;> rfl

omit [ScrollRule] [Crc32] in
private theorem for_cons (s : Mac) (e : DozeEvent) (l : List DozeEvent) : dozeFor s (e :: l) = dozeFor s [e] ++ dozeFor s l := by
  cases e with
  | tell _ _ _ _ => rfl
  | message h p => by_cases e : h.address_1 = s <;> simp [dozeFor, e]
  | other _ => rfl

private theorem run_inv (ap : Mac) (fcs : Bool) (buf : Bytes) (l : List DozeEvent) (d : Dozers) (said : Mac → Bool)
    (msgs : Mac → List Bytes) (hi : Inv fcs buf d said msgs) (hl : ∀ e ∈ l, e.Fine ap fcs ∧ Ready fcs buf e) :
    ∃ d', d.run ap fcs buf l = .ok d' ∧ Inv fcs buf d' (fun s => dozeSaid s l (said s)) (fun s => msgs s ++ dozeFor s l) := by
  induction l generalizing d said msgs with
  | nil => exact ⟨d, rfl, by simpa [dozeSaid, dozeFor] using hi⟩
  | cons e l ih =>
    obtain ⟨h1, h2⟩ := hl e (.head _)
    obtain ⟨d1, h3, h4⟩ := step_inv ap fcs buf d said msgs hi e h1 h2
    obtain ⟨d2, h5, h6⟩ := ih d1 _ _ h4 fun x hx => hl x (.tail _ hx)
    refine ⟨d2, ?_, ?_⟩
    · simp only [Dozers.run, h3, Res.ok_bind, h5]
    · have e1 : (fun s => dozeSaid s (e :: l) (said s)) = fun s => dozeSaid s l (dozeSaid s [e] (said s)) := by
        funext s; exact said_cons s e l _
      have e2 : (fun s => msgs s ++ dozeFor s (e :: l)) = fun s => msgs s ++ dozeFor s [e] ++ dozeFor s l := by
        funext s; rw [for_cons, List.append_assoc]
      rw [e1, e2]
      exact h6

/-- Whatever happens and is lost: the access point believes of each station what it said last; none sleeps of whom it does not
believe so; what a station has got and what is kept for it are all its messages, in order; and nothing is kept for those that
are awake, so they have got everything.  Partial: headers agree with their flags (C27). -/
theorem c105_run_partial (ap : Mac) (fcs : Bool) (l : List DozeEvent) (hl : ∀ e ∈ l, e.Fine ap fcs) :
    ∃ size, ∀ buf : Bytes, size ≤ buf.length → ∃ d, Dozers.start.run ap fcs buf l = .ok d ∧
      ∀ s, d.believed s = dozeSaid s l false ∧ (d.asleep s = true → dozeSaid s l false = true) ∧
        d.got s ++ (d.kept s).map Prod.snd = dozeFor s l ∧ (dozeSaid s l false = false → d.got s = dozeFor s l) := by
  obtain ⟨size, h⟩ := ready ap fcs l hl
  refine ⟨size, fun buf hb => ?_⟩
  obtain ⟨d, h1, h2⟩ := run_inv ap fcs buf l Dozers.start (fun _ => false) (fun _ => [])
    ⟨fun _ => rfl, (fun s hs => by cases hs), fun _ => rfl, fun _ _ => rfl, (fun s x hx => by cases hx)⟩
    fun e he => ⟨hl e he, h buf hb e he⟩
  have hall : ∀ s, d.got s ++ (d.kept s).map Prod.snd = dozeFor s l := fun s => (h2.all s).trans (by simp)
  refine ⟨d, h1, fun s => ⟨h2.said s, fun hs => (h2.said s).symm.trans (h2.safe s hs), hall s, fun hs => ?_⟩⟩
  have := hall s
  rw [h2.awake s ((h2.said s).trans hs)] at this
  simpa using this

/-! ## Anything received -/

/-- Whatever the access point receives: it changes its mind only about the station of the second address, only because of a
data frame that is addressed to it, and to what bit 4 of the second octet says.  It panics exactly if a check sequence is
expected in fewer than four bytes. -/
theorem c105_heard_only (ap : Mac) (fcs : Bool) (d : Dozers) (bytes : Bytes) :
    (d.hear ap fcs bytes = .panic ↔ fcs = true ∧ bytes.length < 4) ∧
    ∀ d' heard, d.hear ap fcs bytes = .ok (d', heard) →
      (d' = d ∧ heard = none) ∨
      ∃ (s : Mac) (b0 flags x y : Byte) (rest : Bytes),
        bytes = withFcs fcs (b0 :: flags :: x :: y :: (ap.val ++ (s.val ++ rest))) ∧ b0.toNat / 4 % 4 = 2 ∧
        heard = some (s, flags.getLsbD 4) ∧ d'.believed = (fun t => if t = s then flags.getLsbD 4 else d.believed t) ∧
        d'.kept = d.kept ∧ d'.asleep = d.asleep ∧ d'.got = d.got := by
  obtain ⟨m1, m2⟩ := match_data fcs bytes
  rw [← m1]
  unfold Dozers.hear hearData
  cases hm : matchFrames bytes (if fcs then some true else none) [armOf dataFrameKind readDataFrame id] with
  | panic => exact ⟨by simp, fun _ _ h => by cases h⟩
  | err e =>
    refine ⟨by simp, fun d' heard h => .inl ?_⟩
    cases h
    exact ⟨rfl, rfl⟩
  | ok x =>
    obtain ⟨i, f⟩ := x
    simp only [Res.ok_bind]
    by_cases he : f.header.address_1 = ap
    · rw [if_pos he]
      refine ⟨by simp, fun d' heard h => .inr ?_⟩
      cases h
      obtain ⟨frame, n, rfl, hr⟩ := m2 i f hm
      obtain ⟨b0, rest, hw, ht, -⟩ := c49_parse _ _ _ _ hr
      simp only [withFcs, Bool.false_eq_true, if_false] at hw
      obtain ⟨x, y, hxy⟩ : ∃ x y, toLE f.header.duration = [x, y] := ⟨_, _, rfl⟩
      refine ⟨f.header.address_2, b0, f.header.fcf_flags.bits, x, y, f.header.address_3.val ++
        (toLE f.header.sequence_control.bits ++ (optWire f.header.address_4 ++ (optWire f.header.qos ++
          (optWire f.header.ht_control ++ rest)))), ?_, ht, rfl, rfl, rfl, rfl, rfl⟩
      rw [hw, dataHeaderWire, hxy, ← he]
      simp only [List.append_assoc, List.cons_append, List.nil_append]
    · rw [if_neg he]
      refine ⟨by simp, fun d' heard h => .inl ?_⟩
      cases h
      exact ⟨rfl, rfl⟩

/-! ## Concrete cases -/

private def ap105 : Mac := ⟨[2, 0, 0, 0, 0, 1], rfl⟩
private def sta105 (i : Byte) : Mac := ⟨[2, 0, 0, 0, 1, i], rfl⟩

/-- A null frame of a station, with or without the flag. -/
private def null105 (i : Byte) (sleep : Bool) : DataFrameHeader :=
  ⟨.Null, ⟨if sleep then 0x11 else 0x01⟩, 0, ap105, sta105 i, ap105, ⟨0⟩, none, none, none⟩

/-- A frame for a station. -/
private def data105 (i : Byte) : DataFrameHeader :=
  ⟨.Data, ⟨0x02⟩, 0, sta105 i, ap105, ap105, ⟨0⟩, none, none, none⟩

/-- Station 1 falls asleep at the second attempt; station 2 does not, since no acknowledgement comes, but its messages are
kept; station 1 wakes up. -/
private def events105 : List DozeEvent :=
  [.message (data105 1) [1], .tell (null105 1 true) none true false, .message (data105 1) [2],
    .tell (null105 1 true) none false false, .message (data105 1) [3], .tell (null105 2 true) none false true,
    .message (data105 2) [4], .message (data105 1) [5], .tell (null105 1 false) none false true, .message (data105 1) [6]]

omit [ScrollRule] in
private theorem events105_fine : ∀ e ∈ events105, e.Fine ap105 true := by
  have hn : ∀ i s, ValidData (null105 i s) ∧ HeaderConsistent (null105 i s) ∧
      ((none : Option Bytes).isSome ↔ payloadSubtype (null105 i s).subtype) ∧ (null105 i s).address_1 = ap105 := by
    intro i s
    refine ⟨⟨show DataFrameSubtype.Null.intoBits.toNat < 16 by decide, fun v hv => by cases hv⟩, ⟨?_, ?_, ?_⟩, ?_, rfl⟩
    · cases s <;> simp only [null105] <;> decide
    · simp only [null105]; decide
    · cases s <;> simp only [null105] <;> decide
    · simp only [null105]; decide
  have hd : ∀ i, ValidData (data105 i) ∧ HeaderConsistent (data105 i) ∧ payloadSubtype (data105 i).subtype := by
    intro i
    refine ⟨⟨show DataFrameSubtype.Data.intoBits.toNat < 16 by decide, fun v hv => by cases hv⟩, ⟨?_, ?_, ?_⟩, ?_⟩ <;>
      simp only [data105] <;> decide
  intro e he
  simp only [events105, List.mem_cons, List.not_mem_nil, or_false] at he
  rcases he with rfl | rfl | rfl | rfl | rfl | rfl | rfl | rfl | rfl | rfl <;> first | exact hn _ _ | exact hd _

example : (∃ size, ∀ buf : Bytes, size ≤ buf.length → ∃ d, Dozers.start.run ap105 true buf events105 = .ok d ∧
      d.got (sta105 1) = [[1], [2], [3], [5], [6]] ∧ d.asleep (sta105 1) = false ∧ d.believed (sta105 2) = true ∧
      d.got (sta105 2) ++ (d.kept (sta105 2)).map Prod.snd = [[4]]) := by
  obtain ⟨size, h⟩ := c105_run_partial ap105 true events105 events105_fine
  refine ⟨size, fun buf hb => ?_⟩
  obtain ⟨d, h1, h2⟩ := h buf hb
  obtain ⟨a1, a2, a3, a4⟩ := h2 (sta105 1)
  obtain ⟨b1, b2, b3, b4⟩ := h2 (sta105 2)
  refine ⟨d, h1, (a4 (by decide)).trans (by decide), ?_, b1.trans (by decide), b3.trans (by decide)⟩
  cases hs : d.asleep (sta105 1) with
  | false => rfl
  | true => exact absurd (a2 hs) (by decide)

omit [ScrollRule] [Crc32] in
/-- The same computed, for the first four events and the next message: station 1 sleeps and its third message is kept. -/
example : letI : ScrollRule := ⟨true⟩
    letI : Crc32 := ⟨fun bs => BitVec.ofNat 32 bs.length⟩
    (Dozers.start.run ap105 true (List.replicate 40 0xff) (events105.take 5)).map (fun d =>
      (d.asleep (sta105 1), d.got (sta105 1), (d.kept (sta105 1)).map Prod.snd)) = .ok (true, [[1], [2]], [[3]]) := by
  decide +kernel

end Verif
