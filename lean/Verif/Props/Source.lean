import Verif.Model.Cli

/-! What the program reads, in terms of what is piped into it and of the content of files only (C49, C140). -/

namespace Jargon

/-- What is to be read at a place: what is piped in, or the content of the file. -/
def textAt {ω : Type} (W : World ω) (fs : Fs) (p : Place) : Reader :=
  match p with
  | .std => W.stdin
  | .file i => fs.content i

/-- **C49 (source).** The input is read as it is: all that is piped in, or all of the file's content, wherever it comes from. -/
theorem C49_source {ω : Type} (W : World ω) (fs : Fs) (p : Place) : W.source fs p = textAt W fs p := by
  cases p <;> rfl

/-- Non-vacuity: the two kinds of places differ. -/
example {ω : Type} (W : World ω) (fs : Fs) (i : FileId) (h : W.stdin.data ≠ (fs.content i).data) :
    (W.source fs .std).data ≠ (W.source fs (.file i)).data := by
  rw [C49_source, C49_source]
  exact h

end Jargon
