import Verif.Spec.Sync
/-!
# What a request has exchanged with the unit
-/
namespace Spec
open Comfo

/-- What a goroutine has written to the unit and got from it, in order. -/
def dialogue (acts : List Act) : List IoEv :=
  acts.filterMap fun
    | .wrote bs r => some (.wrote bs r)
    | .got e r => some (.got e r)
    | _ => none

/-- The dialogue `io` begins with a whole exchange: the frame `cmd data` was sent, the exchange gave
the packet `q`, or ended with the error `e`; `rest` is what followed. -/
def Begins (io : List IoEv) (cmd : UInt8) (data : List UInt8) (expect : Bool) (q : Packet)
    (e : Option Err) (rest : List IoEv) : Prop :=
  ∃ evs, Transaction cmd data expect evs (q, e) ∧ io = evs ++ rest

/-- In the course of `acts` the fans were once seen at these percentages. -/
def SeenAt (inPct outPct : UInt8) (acts : List Act) : Prop :=
  ∃ pre post f g, acts = pre ++ .load .fans f :: .load .fans g :: post ∧
    f.val.inPercent = inPct ∧ g.val.outPercent = outPct

/-- Everything went well in a dialogue: all writes were taken without an error,
acknowledgements whole, everything waited for came without an error, and replies had the command and
a payload that belong to the request for cache `id` made just before. -/
def AllWell : List IoEv → Prop
  | [] => True
  | .wrote bs (n, e) :: io => e = none ∧ (bs = ack → n = 2) ∧
      (match io with
        | .got true (q, _) :: _ => ∀ id, bs = frame (requestCode id) [] →
            q.command = requestCode id + 1 ∧ (decode id q.data).isSome
        | _ => True) ∧ AllWell io
  | .got _ (_, e) :: io => e = none ∧ AllWell io
  | _ :: io => AllWell io

end Spec
