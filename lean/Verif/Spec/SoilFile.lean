import Verif.Model.SoilFile
import Mathlib.Algebra.Order.Field.Rat

/-!
What the text of a soil parameter file says, independently of how it is read: its lines, the blank-separated words of a line, and the
numbers these words stand for.  The text of the file shipped with the code.
-/

namespace LGAR

/-- The lines of a text, each with its newline (the last one may lack it). -/
def textLines : List Char → List (List Char)
  | [] => []
  | c :: s =>
    if c = '\n' then [c] :: textLines s
    else match textLines s with
      | [] => [[c]]
      | l :: ls => (c :: l) :: ls

/-- The blank-separated words of a line. -/
def wordsOf : List Char → List (List Char)
  | [] => []
  | c :: s =>
    if isBlank c then wordsOf s
    else match s with
      | [] => [[c]]
      | d :: _ =>
        if isBlank d then [c] :: wordsOf s
        else match wordsOf s with
          | [] => [[c]]
          | w :: ws => (c :: w) :: ws

/-- Value of a row of digits. -/
def digitsVal (s : List Char) : Nat := s.foldl (fun a c => 10 * a + (c.toNat - 48)) 0

/-- The exponent part of a numeral: empty, or `E`/`e`, an optional sign and digits. -/
def exponentVal : List Char → Option Int
  | [] => some 0
  | c :: s =>
    if c = 'E' ∨ c = 'e' then
      match s with
      | '-' :: t => if t.all Char.isDigit && !t.isEmpty then some (-(digitsVal t : Int)) else none
      | '+' :: t => if t.all Char.isDigit && !t.isEmpty then some (digitsVal t : Int) else none
      | t => if t.all Char.isDigit && !t.isEmpty then some (digitsVal t : Int) else none
    else none

/-- The value of a word that is an unsigned decimal numeral, such as `26.64` or `1.00E-02`. -/
def numeral (w : List Char) : Option ℚ :=
  let ip := w.takeWhile Char.isDigit
  if ip.isEmpty then none
  else
    let t := w.dropWhile Char.isDigit
    let fp := match t with
      | '.' :: u => u.takeWhile Char.isDigit
      | _ => []
    let e := match t with
      | '.' :: u => u.dropWhile Char.isDigit
      | u => u
    (exponentVal e).map fun x => (digitsVal (ip ++ fp) : ℚ) / 10 ^ fp.length * (10 : ℚ) ^ x

/-- Characters no number accepted by `%lf` begins with: letters other than the initials of `inf` and `nan`. -/
def isNumberFree (c : Char) : Prop := c.isAlpha = true ∧ c ≠ 'i' ∧ c ≠ 'I' ∧ c ≠ 'n' ∧ c ≠ 'N'

/-- What is assumed of `%lf`: a blank-delimited decimal numeral is read completely, as `conv` of its exact value (`conv` is the
rounding to a machine number), and a word beginning with a letter is rejected.  Nothing is assumed of other texts. -/
structure ReadsDecimals {α : Type} (scanF : List Char → Option (α × List Char)) (conv : ℚ → α) : Prop where
  num : ∀ (bl w rest : List Char) (q : ℚ), (∀ c ∈ bl, isBlank c = true) → numeral w = some q → (∀ c ∈ w, isBlank c = false) →
    (∀ c, rest.head? = some c → isBlank c = true) → scanF (bl ++ (w ++ rest)) = some (conv q, rest)
  letter : ∀ (bl t : List Char) (c : Char), (∀ c ∈ bl, isBlank c = true) → isNumberFree c → scanF (bl ++ c :: t) = none

/-- Five parameters. -/
structure Five (β : Type) where
  thetaR : β
  thetaE : β
  alpha : β
  n : β
  Ksat : β
deriving DecidableEq

/-- The parameters as machine numbers. -/
def Five.conv {α : Type} (conv : ℚ → α) (v : Five ℚ) : Five α :=
  ⟨conv v.thetaR, conv v.thetaE, conv v.alpha, conv v.n, conv v.Ksat⟩

/-- The parameters stored for a soil type. -/
def SoilProps.five {α : Type} (p : SoilProps α) : Five α := ⟨p.thetaR, p.thetaE, p.vgAlpha, p.vgN, p.Ksat⟩

/-- What a line says: a name of one or more words, and then five numerals. -/
def lineSays (line : List Char) : Option (Five ℚ) :=
  match (wordsOf line).reverse with
  | k :: n :: a :: te :: tr :: _ :: _ => do
    let tr ← numeral tr
    let te ← numeral te
    let a ← numeral a
    let n ← numeral n
    let k ← numeral k
    some ⟨tr, te, a, n, k⟩
  | _ => none

/-- The soil parameter file data/vG_default_params.dat, character by character; all configurations in configs/ use it. -/
def vGDefault : List Char :=
  List.flatMap String.toList [
   "\"Texture\t        theta_r\ttheta_e\talpha (cm^-1)\tn\tKs (cm/h)\"\n",
   "\"Clay\"\t                0.1\t0.46\t1.00E-02\t1.25\t0.612\n",
   "\"Clay-loam\"\t        0.08\t0.44\t2.00E-02\t1.42\t0.3348\n",
   "\"Loam\"\t                0.06\t0.4\t1.00E-02\t1.47\t0.504\n",
   "\"Loamy-sand\"\t        0.05\t0.39\t3.00E-02\t1.75\t4.32\n",
   "\"Sand\"\t                0.05\t0.38\t4.00E-02\t3.18\t26.64\n",
   "\"Sandy-clay\"\t        0.12\t0.39\t3.00E-02\t1.21\t0.468\n",
   "\"Sandy-clay loam\"\t0.06\t0.38\t2.00E-02\t1.33\t0.54\n",
   "\"Sandy-loam\"\t        0.04\t0.39\t3.00E-02\t1.45\t1.584\n",
   "\"Silt\"\t                0.05\t0.49\t1.00E-02\t1.68\t1.836\n",
   "\"Silty-clay\"\t        0.11\t0.48\t2.00E-02\t1.32\t0.432\n",
   "\"Silty-clay loam\"\t0.09\t0.48\t1.00E-02\t1.52\t0.468\n",
   "\"Silt-loam\"\t        0.07\t0.44\t1.00E-02\t1.66\t0.756\n",
   "\"P-1\"                   0.0648\t0.4513\t0.0031297\t1.6858  0.45\n",
   "\"P-2\"    \t\t0.0831 \t0.4773 \t0.0083272 \t1.299 \t 0.07\n",
   "\"P-3\" \t\t\t0.0668 \t0.4617 \t0.0037454 \t1.6151 \t 0.45\n",
   "\"B-1\"                \t0.0649\t0.4481\t0.009567\t1.3579\t0.07\n",
   "\"B-2\"    \t\t0.0672 \t0.4760 \t0.005288 \t1.5276 \t 0.02\n",
   "\"B-3\" \t\t\t0.0823 \t0.4782 \t0.004467 \t1.4585 \t 0.20"]

/-- The numbers in that file, line by line after the header. -/
def vGDefaultSays : List (Five ℚ) :=
  [
   ⟨0.1, 0.46, 0.01, 1.25, 0.612⟩,
   ⟨0.08, 0.44, 0.02, 1.42, 0.3348⟩,
   ⟨0.06, 0.4, 0.01, 1.47, 0.504⟩,
   ⟨0.05, 0.39, 0.03, 1.75, 4.32⟩,
   ⟨0.05, 0.38, 0.04, 3.18, 26.64⟩,
   ⟨0.12, 0.39, 0.03, 1.21, 0.468⟩,
   ⟨0.06, 0.38, 0.02, 1.33, 0.54⟩,
   ⟨0.04, 0.39, 0.03, 1.45, 1.584⟩,
   ⟨0.05, 0.49, 0.01, 1.68, 1.836⟩,
   ⟨0.11, 0.48, 0.02, 1.32, 0.432⟩,
   ⟨0.09, 0.48, 0.01, 1.52, 0.468⟩,
   ⟨0.07, 0.44, 0.01, 1.66, 0.756⟩,
   ⟨0.0648, 0.4513, 0.0031297, 1.6858, 0.45⟩,
   ⟨0.0831, 0.4773, 0.0083272, 1.299, 0.07⟩,
   ⟨0.0668, 0.4617, 0.0037454, 1.6151, 0.45⟩,
   ⟨0.0649, 0.4481, 0.009567, 1.3579, 0.07⟩,
   ⟨0.0672, 0.4760, 0.005288, 1.5276, 0.02⟩,
   ⟨0.0823, 0.4782, 0.004467, 1.4585, 0.20⟩]

end LGAR
