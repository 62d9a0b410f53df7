import Verif.Spec.Strptime

/-!
# What a list of formats says

A text is read with the first format of the list that gives a moment other than zero (midnights up to 1 January 1970, and the
time 00:00, which the code cannot tell from a failure).
-/

namespace Rxls

/-- The moment that the formats give to a text; `sp` is the parser of one format. -/
def momentBy (sp : Str → Option Str → Option Int) : List Str → Option Str → Option Int
  | [], _ => none
  | f :: fs, s =>
    match sp f s with
    | some v => if timeOfDay v = 0 then momentBy sp fs s else some (timeOfDay v)
    | none => momentBy sp fs s

/-- The formats that are used: those given, or the default ones. -/
def usedFormats (defaults given : List Str) : List Str := if given = [] then defaults else given

/-- Two lists of formats read every text alike. -/
def SameMoments (sp : Str → Option Str → Option Int) (F G : List Str) : Prop := ∀ s, momentBy sp F s = momentBy sp G s

/-- No text fits both formats. -/
def Apart (sp : Str → Option Str → Option Int) (f g : Str) : Prop := ∀ s, sp f s = none ∨ sp g s = none

end Rxls
