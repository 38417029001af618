import Verif.Model.Init

/-!
Reading the soil parameter file character by character: `fgets(jstr,255,fptr)` in lgar_read_vG_param_file, lgar.cxx 2301-2304.
`Model/Init.lean` starts from the results of successive `fgets` calls; here these results are computed from the text of the file.
Not modelled: NUL characters in the file (they would end the string seen by `sscanf`) and read errors.
-/

namespace LGAR

/-- `fgets` with room for `n` characters: stops after a newline, after `n` characters, or at the end of the file.
The characters stored and the rest of the file. -/
def fgets : Nat → List Char → List Char × List Char
  | 0, s => ([], s)
  | _ + 1, [] => ([], [])
  | n + 1, c :: s => if c = '\n' then ([c], s) else (c :: (fgets n s).1, (fgets n s).2)

/-- Successive `fgets` calls until one returns NULL (lgar.cxx 2301, 2304), at most `k` of them. -/
def fgetsGo (n : Nat) : Nat → List Char → List (List Char)
  | 0, _ => []
  | k + 1, s => if s.isEmpty then [] else (fgets n s).1 :: fgetsGo n k (fgets n s).2

/-- All strings the reader sees: the buffer size passed is 255, so 254 characters fit. -/
def fgetsAll (text : List Char) : List (List Char) := fgetsGo 254 text.length text

/-- An environment in which the file has the given text. -/
def Env.HasText {α : Type} (env : Env α) (file text : List Char) : Prop := env.files file = some (fgetsAll text)

end LGAR
