/-! What it costs to take a buffer apart from the front when the remaining octets are moved to the front each time. -/
namespace Verif.Spec

/-- Pieces of lengths `ls` are taken off, one after the other, and `rest` octets stay: the number of octets moved in total,
i.e. the sum over the pieces of what is left after taking them. -/
def movedBy (rest : Nat) : List Nat → Nat
  | [] => 0
  | _ :: ls => (ls.sum + rest) + movedBy rest ls

end Verif.Spec
