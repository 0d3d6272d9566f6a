import Verif.Spec.Obituary

/-! What one message is worth. -/

namespace Spec

/-- The player whose score an obituary changes, and by how much. An anonymous teamkill does not say. -/
def award : Obituary → Option (List Char × Int)
  | .frag killer _ => some (killer, 1)
  | .death player => some (player, -1)
  | .suicide player => some (player, -2)
  | .suicideByWeapon player => some (player, -1)
  | .teamkill killer => some (killer, -1)
  | .teamkillByUnknown _ => none

end Spec
