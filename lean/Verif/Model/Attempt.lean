import Verif.Model.Frames.Mgmt
/-!
# `/repo/src/frames/mgmt_frame/mod.rs`: a dynamic management frame after a step that failed

`add_element` takes `&mut self`, so the caller still has the frame when it returns an error.  The offset has not been
moved then, for `gwrite` of `scroll` moves it on success only.  The buffer may have been changed: the element's writer is
given the part of the buffer from the offset on, and what it has written there before it failed stays there.
`Model/Frames/Mgmt.lean` gives the frame after a success only; here is the frame as the caller finds it in each case.
-/
namespace Verif

/-- `add_element`, /repo/src/frames/mgmt_frame/mod.rs:185-189: what is returned, and the frame afterwards.  `residue` is
what a failing writer leaves in the part of the buffer it was given; theorems are for any such function that keeps the
length.  (Simplified: an offset outside the buffer is refused without calling the writer; the residue is then that of
the empty slice.) -/
def DynamicManagementFrame.tryAddElement [ScrollRule] (residue : Bytes → Bytes) (d : DynamicManagementFrame)
    (e : Elem) : Res Unit × DynamicManagementFrame :=
  match Wr.gwrite e.writeWrapped d.buffer d.offset with
  | .ok (_, buffer, offset) => (.ok (), ⟨buffer, offset⟩)
  | .err x => (.err x, ⟨d.buffer.take d.offset ++ residue (d.buffer.drop d.offset), d.offset⟩)
  | .panic => (.panic, d)

end Verif
