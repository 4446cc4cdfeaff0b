/-
Specification: reading one text after another.
-/
import Verif.Spec.FaultsEvents
import Verif.Spec.KV

namespace Osu

/-- What is read from two texts put one after the other, the second starting `k` lines below: the things of the first,
then those of the second; the first problem counts. -/
def oneAfter {E α : Type} (k : Nat) : Res (LErr E) (List α) → Res (LErr E) (List α) → Res (LErr E) (List α)
  | .ok xs, .ok ys => .ok (xs ++ ys)
  | .ok _, .err e => .err ⟨e.line + k, e.error⟩
  | .ok _, .panic => .panic
  | .err e, _ => .err e
  | .panic, _ => .panic

/-- The first line of a text that is not blank is not indented. -/
def Flush (s : Str) : Prop := ∀ pre l post, lines s = pre ++ l :: post → (∀ x ∈ pre, trim x = []) → trim l ≠ [] →
  l.head? ≠ some ' ' ∧ l.head? ≠ some '_'

/-- `s` consists of `key: value` entries with these keys, blanks between and after them, and nothing else. -/
def KeysOf (s : Str) (ks : List Str) : Prop := ∃ es, KVSplits s es [] ∧ ks = es.map fun e => e.1.key

end Osu
