/-
C98: saving a file invents no characters.
-/
import Verif.Proof.LettersBoard

namespace Osu
open SB Ev

section
variable {D : Type} [DecLib D] [UniLib]

/-- C98: every character of what is saved of a loaded file stands in the loaded text, is a printable ASCII character, or ends a line. -/
theorem C98_file (s t : Str) (f : OsuFile D) (h : OsuFile.parse s = .ok f) (ht : f.shw = some t) : NothingForeign s t := nf_file h ht

/-- C98: the same for storyboards, with or without variables. -/
theorem C98_storyboard (v : Nat) (s t : Str) (o : Osb D) (h : Osb.parse v s = .ok (some o)) (ht : Osb.shw v o = some (some t)) :
    NothingForeign s t := nf_board h ht

/-- C98: so a file of ASCII characters is saved in ASCII characters. -/
theorem C98_ascii (s t : Str) (f : OsuFile D) (h : OsuFile.parse s = .ok f) (ht : f.shw = some t) (hs : ∀ c ∈ s, c.toNat < 128) :
    ∀ c ∈ t, c.toNat < 128 := fun c hc => by
  rcases C98_file s t f h ht c hc with hm | hm | rfl
  · exact hs c hm
  · unfold Printable at hm; omega
  · decide

/-- C98: a character that is neither printable nor a line feed is never added: no carriage return, byte order mark, tab or NUL. -/
theorem C98_never_added (s t : Str) (f : OsuFile D) (h : OsuFile.parse s = .ok f) (ht : f.shw = some t) (c : Char) (hc : c ∉ s)
    (hp : ¬Printable c) (hl : c ≠ '\n') : c ∉ t := fun hm => by
  rcases C98_file s t f h ht c hm with h | h | h
  · exact hc h
  · exact hp h
  · exact hl h

end

section
attribute [local instance] asciiUni

/-- A file with characters that are not ASCII. -/
abbrev foreignFile : Str := c!"osu file format v14\r\n\r\n[Metadata]\r\nTitle:é\r\n[Events]\r\n0,0,a ü.png,0,0\r\nSprite,Fail,Centre,b.png,1,2\r\n M,0,1,,ö,4\r\n"

/-- A storyboard with such a value. -/
abbrev foreignBoard : Str := c!"[Variables]\n$a=é\n[Events]\n4,3,1,a.png,320,240\n S,0,1,,$a"

/-- What is saved of it. -/
abbrev foreignBoardSaved : Str := c!"[Variables]\n$a=é\n\n[Events]\n4,3,1,a.png,320,240\n S,0,1,,$a"

/-- What is saved of the file. -/
abbrev foreignSaved : Str := c!"osu file format v14\n\n[Metadata]\nTitle:é\n\n[Events]\n0,0,\"a ü.png\",0,0\nSprite,Fail,Centre,b.png,1,2\n M,0,1,,ö,4"

set_option maxRecDepth 4000 in
theorem foreign_saved : ∃ f : OsuFile Dec96, OsuFile.parse foreignFile = .ok f ∧ f.shw = some foreignSaved := ⟨_, rfl, rfl⟩

example : NothingForeign foreignFile foreignSaved ∧ '\r' ∈ foreignFile ∧ '\r' ∉ foreignSaved ∧ 'ö' ∈ foreignSaved := by
  obtain ⟨f, h1, h2⟩ := foreign_saved
  exact ⟨C98_file _ _ f h1 h2, by decide, by decide, by decide⟩

example : ¬NothingForeign foreignFile c!"Title:è" := by
  intro h
  rcases h 'è' (by decide) with h | h | h
  · exact absurd h (by decide)
  · exact absurd h (by decide)
  · exact absurd h (by decide)

example : '\t' ∉ foreignSaved := by
  obtain ⟨f, h1, h2⟩ := foreign_saved
  exact C98_never_added _ _ f h1 h2 _ (by decide) (by decide) (by decide)

/-- A file of ASCII characters only, with a path that gets quotes and a fade that is written in another way. -/
abbrev asciiFile : Str := c!"osu file format v14\n[Events]\n0,0,a b.png,0,0\nSprite,Background,Centre,b.png,1,2\n F,00,1,,4"

/-- What is saved of it. -/
abbrev asciiSaved : Str := c!"osu file format v14\n\n[Events]\n0,0,\"a b.png\",0,0\nSprite,Background,Centre,b.png,1,2\n F,0,1,,4"

set_option maxRecDepth 4000 in
theorem ascii_saved : ∃ f : OsuFile Dec96, OsuFile.parse asciiFile = .ok f ∧ f.shw = some asciiSaved := ⟨_, rfl, rfl⟩

example : ∀ c ∈ asciiSaved, c.toNat < 128 := by
  obtain ⟨f, h1, h2⟩ := ascii_saved
  exact C98_ascii _ _ f h1 h2 (by decide)

/-- It is false that every character that is saved stands in the loaded text: paths with spaces get quotes. -/
theorem C98_false : ∃ (s t : Str) (f : OsuFile Dec96), OsuFile.parse s = .ok f ∧ f.shw = some t ∧ ∃ c ∈ t, c ∉ s := by
  obtain ⟨f, h1, h2⟩ := ascii_saved
  exact ⟨_, _, f, h1, h2, '"', by decide, by decide⟩

example : '"' ∈ asciiSaved ∧ '"' ∉ asciiFile ∧ NothingForeign asciiFile asciiSaved := by
  obtain ⟨f, h1, h2⟩ := ascii_saved
  exact ⟨by decide, by decide, C98_file _ _ f h1 h2⟩

example : ∃ o : Osb Dec96, Osb.parse 14 foreignBoard = .ok (some o) ∧ NothingForeign foreignBoard foreignBoardSaved := by
  obtain ⟨o, h1, h2⟩ : ∃ o : Osb Dec96, Osb.parse 14 foreignBoard = .ok (some o) ∧ Osb.shw 14 o = some (some foreignBoardSaved) := ⟨_, rfl, rfl⟩
  exact ⟨o, h1, C98_storyboard 14 _ _ o h1 h2⟩

end
end Osu
