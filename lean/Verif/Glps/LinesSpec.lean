import Verif.Glps.LexSpec
import Verif.Glps.GrammarSpec

/-! # On which line something stands -/

namespace Flame.Glps

/-- The line of what follows a text. -/
def lineAfter (before : Name) : Nat := 1 + before.count '\n'

/-- Reading a text piece by piece (see `Reads`), with the line of each token and of the place where reading ends. -/
inductive Numbered {N : Type} (strtod : Name → Option N) : (before : Name) → Name → List (Tok N × Nat) → Bool → Nat → Prop
  | done {b} : Numbered strtod b [] [] true (lineAfter b)
  | tok {k b p s t ts e n} (hl : Longest k p (p ++ s)) (hm : meaning strtod k p = some (some t))
      (h : Numbered strtod (b ++ p) s ts e n) : Numbered strtod b (p ++ s) ((t, lineAfter b) :: ts) e n
  | skip {k b p s ts e n} (hl : Longest k p (p ++ s)) (hm : meaning strtod k p = some none)
      (h : Numbered strtod (b ++ p) s ts e n) : Numbered strtod b (p ++ s) ts e n
  | range {k b p s} (hl : Longest k p (p ++ s)) (hm : meaning strtod k p = none) :
      Numbered strtod b (p ++ s) [] false (lineAfter b)
  | stuck {b s} (hs : s ≠ []) (h : ∀ k p, Form k p → ¬ p <+: s) : Numbered strtod b s [] false (lineAfter b)

/-- A statement stands among the tokens: its tokens, the line of the first and the line of the last, which is the semicolon. -/
inductive Stands {N : Type} : List (Tok N × Nat) → Stmt N → Nat → Nat → Prop
  | intro {s t first body semi} (h : DerS ((t, first) :: body ++ [(Tok.sym ';', semi)] |>.map Prod.fst) s) :
      Stands ((t, first) :: body ++ [(Tok.sym ';', semi)]) s first semi

end Flame.Glps
