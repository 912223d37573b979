import Verif.Model.Wrapper

/-!
# Programs that decode the parts of a text independently

Not code of the repository: a program that divides data at arbitrary places, moves each place to the
end of the char it is in, with one call of `decode_to_str` (src/lib.rs:148-163) from there, and then
decodes the parts by themselves, at the same time or in any order. Calls have no common state, so that
only the results matter.
-/

namespace Verif.Props

/-- The place to divide at: after the error, if a call for the data from `cut` on reports one at its
beginning (src/lib.rs:148-163). -/
def alignCut (e : Encoding) (buf data : Bytes) (cut : Nat) : Rs Nat := do
  let (_, r) ← decode_to_str e (data.drop cut) buf false
  match r with
  | .ok _ => .ok cut
  | .error err => .ok (if err.error_range.1 = 0 then cut + err.error_range.2 else cut)

/-- The parts of the data from `start` on, divided near the places `cuts`. -/
def divide (e : Encoding) (buf data : Bytes) : Nat → List Nat → Rs (List Bytes)
  | start, [] => .ok [data.drop start]
  | start, cut :: cuts => do
    let s ← alignCut e buf data cut
    let ps ← divide e buf data s cuts
    .ok ((data.take s).drop start :: ps)

end Verif.Props
