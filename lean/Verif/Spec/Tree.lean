/-
Specification of nested storyboard commands: the depth-first listing of a forest of commands with the
nesting level of each command.
-/
import Verif.Model.Events

namespace Osu
open SB (Command CmdProps)

namespace SB
variable {D : Type}

/-- The command without its nested commands. -/
def Command.bare : Command D → Command D
  | .mk t (.loop n _) => .mk t (.loop n [])
  | .mk t (.trigger ty e g _) => .mk t (.trigger ty e g [])
  | .mk t p => .mk t p

/-- Loops and triggers hold nested commands. -/
def Command.Holds : Command D → Prop
  | .mk _ (.loop ..) => True
  | .mk _ (.trigger ..) => True
  | _ => False

instance (c : Command D) : Decidable c.Holds := by
  cases c with | mk t p => cases p <;> (simp only [Command.Holds]; infer_instance)

mutual
/-- A command at level `k` and the commands nested in it, depth first: level and command. -/
def Command.listing (k : Nat) : Command D → List (Nat × Command D)
  | .mk t p => (k, Command.bare (.mk t p)) :: CmdProps.listing (k + 1) p
/-- The commands nested in a loop or trigger. -/
def CmdProps.listing (k : Nat) : CmdProps D (Command D) → List (Nat × Command D)
  | .loop _ cs => listing k cs
  | .trigger _ _ _ cs => listing k cs
  | _ => []
/-- Commands at level `k`, one after the other. -/
def listing (k : Nat) : List (Command D) → List (Nat × Command D)
  | [] => []
  | c :: cs => c.listing k ++ listing k cs
end

end SB

/-- Pushing the listed commands one after the other; `none` if one is refused. -/
def pushAll {D : Type} : List (Command D) → List (Nat × Command D) → Option (List (Command D))
  | cs, [] => some cs
  | cs, (k, c) :: l =>
    match Ev.tryPush cs c k with
    | (cs', .ok _) => pushAll cs' l
    | _ => none

/-- The greatest level at which a command may be put after the last command of a listing: at its own level or
above, or inside it. -/
def maxLevel {D : Type} (l : List (Nat × Command D)) : Nat :=
  match l.getLast? with
  | none => 1
  | some (k, c) => if c.Holds then k + 1 else k

end Osu
