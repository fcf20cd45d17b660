import Verif.Props.C06
import Verif.Props.C23
import Verif.Model.Frames.Data
/-!
# C45: frames assembled step by step
-/
namespace Verif

variable [ScrollRule] [Crc32]

namespace Spec

/-- The program: create the dynamic frame, add the elements one by one, finish. -/
def assemble (frame : Bool → Writer) (es : List Elem) (fcs : Bool) : Writer := fun buf =>
  (DynamicManagementFrame.new frame buf).bind fun d =>
    (es.foldlM DynamicManagementFrame.addElement d).bind fun d => d.finish fcs

end Spec

open Spec

private theorem fold_eq (es : List Elem) (fcs : Bool) : ∀ buf off,
    (es.foldlM DynamicManagementFrame.addElement ⟨buf, off⟩).bind (fun d => d.finish fcs) =
      match ((es.forM fun e => Wr.gwrite e.writeWrapped) >>= fun _ => if fcs then attachFcs else pure ())
        buf off with
      | .ok (_, b, o) => .ok (b, o)
      | .err e => .err e
      | .panic => .panic := by
  induction es with
  | nil =>
    intro buf off
    show DynamicManagementFrame.finish ⟨buf, off⟩ fcs = _
    cases fcs
    · rfl
    · show DynamicManagementFrame.finish ⟨buf, off⟩ true = (match attachFcs buf off with
        | .ok (_, b, o) => Res.ok (b, o) | .err e => .err e | .panic => .panic)
      simp only [DynamicManagementFrame.finish, attachFcs, if_true]
      by_cases hb : off ≤ buf.length
      · rw [if_pos hb, if_pos hb]
        cases Wr.gwrite (writeLE (Crc32.hash (buf.take off))) buf off <;> rfl
      · rw [if_neg hb, if_neg hb]
  | cons e es ih =>
    intro buf off
    show Res.bind (Res.bind (DynamicManagementFrame.addElement ⟨buf, off⟩ e) fun d =>
      es.foldlM DynamicManagementFrame.addElement d) _ = (match Wr.bind (Wr.bind (Wr.gwrite e.writeWrapped) fun _ =>
        es.forM fun e => Wr.gwrite e.writeWrapped) (fun _ => if fcs then attachFcs else pure ()) buf off with
        | .ok (_, b, o) => Res.ok (b, o) | .err e => .err e | .panic => .panic)
    simp only [DynamicManagementFrame.addElement, Wr.bind]
    cases Wr.gwrite e.writeWrapped buf off with
    | ok x => exact ih x.2.1 x.2.2
    | err e => rfl
    | panic => rfl

/-- The steps are one writer. -/
theorem assemble_eq (frame : Bool → Writer) (es : List Elem) (fcs : Bool) :
    assemble frame es fcs = Wr.run ((do
      Wr.gwrite (frame false)
      es.forM fun e => Wr.gwrite e.writeWrapped) >>= fun _ => if fcs then attachFcs else pure ()) := by
  funext buf
  show Res.bind (DynamicManagementFrame.new frame buf) _ = (match Wr.bind (Wr.bind (Wr.gwrite (frame false)) fun _ =>
        es.forM fun e => Wr.gwrite e.writeWrapped) (fun _ => if fcs then attachFcs else pure ()) buf 0 with
        | .ok (_, b, o) => Res.ok (b, o) | .err e => .err e | .panic => .panic)
  simp only [DynamicManagementFrame.new, pwrite, Wr.bind]
  cases Wr.gwrite (frame false) buf 0 with
  | ok x => exact fold_eq es fcs x.2.1 x.2.2
  | err e => rfl
  | panic => rfl

omit [Crc32] in
private theorem elements_emit (ps : List (Elem × RawElement)) (hs : ∀ p ∈ ps, ∃ y, ItemOf (.typed p.1) p.2 y) :
    ∃ need, need ≤ ((ps.map Prod.snd).flatMap tlv).length + slack ∧
      WEmits ((ps.map Prod.fst).forM fun e => Wr.gwrite e.writeWrapped) () ((ps.map Prod.snd).flatMap tlv) need := by
  induction ps with
  | nil => exact ⟨0, Nat.zero_le _, WEmits.pure⟩
  | cons p ps ih =>
    obtain ⟨k, hk, hw⟩ := ih fun q hq => hs q (List.mem_cons_of_mem _ hq)
    obtain ⟨y, hy⟩ := hs p List.mem_cons_self
    have he := hy.emits
    have hyl : y ≤ slack := by
      generalize hi : ChainItem.typed p.1 = i at hy
      generalize p.2 = r at hy
      cases hy with
      | raw e h => omega
      | typed e p n hw hn hm hl => omega
    have hsl := slack_le
    refine ⟨_, ?_, WEmits.bind (WEmits.gwrite he) hw⟩
    simp only [List.map_cons, List.flatMap_cons, List.length_append]
    omega

/-- A frame assembled step by step is the frame with the elements at the end of its body: in any
buffer large enough these bytes are written, followed by the check sequence over all of them if it is
asked for; in a smaller buffer some step reports an error. -/
theorem c45_dynamic (s : ManagementFrameSubtype) (hs : ValidSubtype s) (h : ManagementFrameHeader)
    (w : Writer) (body : Bytes) (m : Nat) (hw : Emits w body m) (hm : m ≤ body.length + slack)
    (ps : List (Elem × RawElement)) (hps : ∀ p ∈ ps, ∃ y, ItemOf (.typed p.1) p.2 y) (fcs : Bool) :
    ∃ need, need ≤ (withFcs fcs (mgmtFrameWire s h (body ++ (ps.map Prod.snd).flatMap tlv))).length + slack ∧
      Emits (assemble (writeMgmtFrame s h w) (ps.map Prod.fst) fcs)
        (withFcs fcs (mgmtFrameWire s h (body ++ (ps.map Prod.snd).flatMap tlv))) need := by
  have hsl := slack_le
  obtain ⟨k, hk, hes⟩ := elements_emit ps hps
  have hf := c23_write s hs h w body m hw false
  rw [assemble_eq]
  have hall := Emits.withFcs (WEmits.bind
    (f := fun _ => (ps.map Prod.fst).forM fun e => Wr.gwrite e.writeWrapped) (WEmits.gwrite hf) hes) fcs
  have hwire : withFcs false (mgmtFrameWire s h body) ++ (ps.map Prod.snd).flatMap tlv =
      mgmtFrameWire s h (body ++ (ps.map Prod.snd).flatMap tlv) := by
    simp [withFcs, mgmtFrameWire]
  rw [hwire] at hall
  refine ⟨_, ?_, hall⟩
  generalize (ps.map Prod.snd).flatMap tlv = l at hk ⊢
  cases fcs <;> simp [withFcs, mgmtFrameWire] <;> omega

/-- So it equals the frame written at once, when the body writes those elements itself. -/
theorem c45_equal (s : ManagementFrameSubtype) (hs : ValidSubtype s) (h : ManagementFrameHeader)
    (w : Writer) (body : Bytes) (m : Nat) (hw : Emits w body m) (hm : m ≤ body.length + slack)
    (ps : List (Elem × RawElement)) (hps : ∀ p ∈ ps, ∃ y, ItemOf (.typed p.1) p.2 y)
    (w' : Writer) (m' : Nat) (hw' : Emits w' (body ++ (ps.map Prod.snd).flatMap tlv) m')
    (hm' : m' ≤ (body ++ (ps.map Prod.snd).flatMap tlv).length + slack) (fcs : Bool) (buf : Bytes) :
    let frame := withFcs fcs (mgmtFrameWire s h (body ++ (ps.map Prod.snd).flatMap tlv))
    (frame.length + slack ≤ buf.length →
      assemble (writeMgmtFrame s h w) (ps.map Prod.fst) fcs buf = .ok (frame ++ buf.drop frame.length, frame.length) ∧
      writeMgmtFrame s h w' fcs buf = .ok (frame ++ buf.drop frame.length, frame.length)) ∧
    (buf.length < frame.length →
      (assemble (writeMgmtFrame s h w) (ps.map Prod.fst) fcs buf).isErr = true ∧
      (writeMgmtFrame s h w' fcs buf).isErr = true) := by
  have hsl := slack_le
  obtain ⟨n, hn, he⟩ := c45_dynamic s hs h w body m hw hm ps hps fcs
  have hf := c23_write s hs h w' _ m' hw' fcs
  refine ⟨fun hb => ⟨he.ok buf (by omega), hf.ok buf ?_⟩, fun hb => ?_⟩
  · refine Nat.le_trans ?_ hb
    cases fcs <;> simp [withFcs, mgmtFrameWire] at hm' ⊢ <;> omega
  · have h1 := he.le
    have h2 := hf.le
    obtain ⟨e1, h1⟩ := he.err buf (by omega)
    obtain ⟨e2, h2⟩ := hf.err buf (by omega)
    rw [h1, h2]
    exact ⟨rfl, rfl⟩

/-- In particular for every body of C22: the elements added to a body with the chain `c` give the frame
of the same body with those elements appended to the chain. -/
theorem c45_bodies {β : Type → Type} {read : Reader (β Bytes)} {write : β Obj → Writer}
    {get : (ε : Type) → β ε → ε} {set : (ε δ : Type) → β ε → δ → β δ}
    {fixed : (ε : Type) → β ε → Bytes} {valid : β Bytes → Prop} {n : Nat} {need : Nat → Nat}
    {same : Bytes → Bytes → Prop} (hbody : BodyOf read write get set fixed valid n need same)
    (hneed : ∀ m, need m ≤ n + max m slack)
    (s : ManagementFrameSubtype) (hs : ValidSubtype s) (h : ManagementFrameHeader)
    (b b' : β Obj) (c c' : Chain) (raws : List RawElement) (x x' : Nat) (hc : ChainOf c raws x)
    (hx : x ≤ slack) (hx' : x' ≤ slack)
    (ps : List (Elem × RawElement)) (hps : ∀ p ∈ ps, ∃ y, ItemOf (.typed p.1) p.2 y)
    (hc' : ChainOf c' (raws ++ ps.map Prod.snd) x') (hb : get _ b = c.obj) (hb' : get _ b' = c'.obj)
    (hfix : fixed _ b' = fixed _ b) (fcs : Bool) (buf : Bytes)
    (hbuf : 2 + (mgmtHeaderWire h).length + n + ((raws ++ ps.map Prod.snd).flatMap tlv).length + 4 + slack ≤ buf.length) :
    assemble (writeMgmtFrame s h (write b)) (ps.map Prod.fst) fcs buf = writeMgmtFrame s h (write b') fcs buf := by
  have hsl := slack_le
  have h1 := hbody.writes b _ _ (by rw [hb]; exact hc.emits)
  have h2 := hbody.writes b' _ _ (by rw [hb']; exact hc'.emits)
  have hn : (fixed _ b).length = n := by rw [← hbody.fixed_set b []]; exact hbody.size _
  rw [hfix, List.flatMap_append, ← List.append_assoc] at h2
  have := (c45_equal s hs h (write b) _ _ h1 (by
      refine Nat.le_trans (hneed _) ?_
      simp only [List.length_append, hn]; omega) ps hps (write b') _ h2 (by
      refine Nat.le_trans (hneed _) ?_
      simp only [List.length_append, hn]; omega) fcs buf).1 (by
      refine Nat.le_trans ?_ hbuf
      cases fcs <;> simp [withFcs, mgmtFrameWire, hn] <;> omega)
  exact this.1.trans this.2.symm

/-- For example a beacon. -/
theorem c45_beacon (h : ManagementFrameHeader) (b b' : BeaconLikeBody Obj) (c c' : Chain) (raws : List RawElement)
    (x x' : Nat) (hc : ChainOf c raws x) (hx : x ≤ slack) (hx' : x' ≤ slack)
    (ps : List (Elem × RawElement)) (hps : ∀ p ∈ ps, ∃ y, ItemOf (.typed p.1) p.2 y)
    (hc' : ChainOf c' (raws ++ ps.map Prod.snd) x') (hb : b.elements = c.obj)
    (hb' : b' = { b with elements := c'.obj }) (fcs : Bool) (buf : Bytes)
    (hbuf : 2 + (mgmtHeaderWire h).length + 12 + ((raws ++ ps.map Prod.snd).flatMap tlv).length + 4 + slack ≤ buf.length) :
    assemble (writeMgmtFrame .Beacon h (writeBeaconLike b)) (ps.map Prod.fst) fcs buf =
      writeMgmtFrame .Beacon h (writeBeaconLike b') fcs buf :=
  c45_bodies c22_beacon (fun _ => Nat.le_refl _) .Beacon ⟨by decide, ManagementFrameSubtype.canonical_fromBits 8⟩ h b b' c c' raws x x' hc hx hx' ps hps hc' hb
    (by rw [hb']) (by rw [hb']) fcs buf hbuf

/-- A typed frame made dynamic and finished at once is the frame as written, for any body. -/
theorem c45_into_dynamic (s : ManagementFrameSubtype) (hs : ValidSubtype s) (h : ManagementFrameHeader) (w : Writer)
    (body : Bytes) (m : Nat) (hw : Emits w body m) (hm : m ≤ body.length + slack) (fcs : Bool) (buf : Bytes) :
    let frame := withFcs fcs (mgmtFrameWire s h body)
    (frame.length + slack ≤ buf.length →
      ((intoDynamic s h w buf).bind fun d => d.finish fcs) = .ok (frame ++ buf.drop frame.length, frame.length) ∧
      writeMgmtFrame s h w fcs buf = .ok (frame ++ buf.drop frame.length, frame.length)) ∧
    (buf.length < frame.length →
      ((intoDynamic s h w buf).bind fun d => d.finish fcs).isErr = true ∧ (writeMgmtFrame s h w fcs buf).isErr = true) := by
  have := c45_equal s hs h w body m hw hm [] (by simp) w m (by simpa using hw) (by simpa using hm) fcs buf
  simpa [assemble, intoDynamic, Res.bind] using this

/-- A typed element as the hypotheses have it. -/
example : ∃ y, ItemOf (.typed ⟨.Id 0, bytesObj [0x61, 0x62]⟩) ⟨0, [0x61, 0x62]⟩ y :=
  ⟨_, .typed ⟨.Id 0, bytesObj [0x61, 0x62]⟩ [0x61, 0x62] 2 (Emits.bytes _) (by simp) rfl (by decide)⟩

end Verif
