import Verif.Model.Report

/-! What can be written on the command line, and what it means. -/

namespace MdSpec
open MdRecover
namespace CommandLine

/-- A word that stands for itself: it is not empty and does not begin with `-`, unless it is just `-`. -/
def Value (w : Bytes) : Prop := w ≠ [] ∧ (w = ascii "-" ∨ w.head? ≠ (ascii "-").head?)

/-- A word, or two, naming a device or an output. -/
inductive Item : List Bytes → List Bytes → List Bytes → Prop
  | device {p : Bytes} : Value p → Item [p] [p] []
  | next {v : Bytes} : Value v → Item [ascii "-o", v] [] [v]
  | nextLong {v : Bytes} : Value v → Item [ascii "--output", v] [] [v]
  | joined {v : Bytes} : v ≠ [] → v.head? ≠ (ascii "=").head? → Item [ascii "-o" ++ v] [] [v]
  | joinedEquals {v : Bytes} : v ≠ [] → Item [ascii "-o=" ++ v] [] [v]
  | joinedLong {v : Bytes} : v ≠ [] → Item [ascii "--output=" ++ v] [] [v]

/-- Items one after the other: the words, the devices and the outputs, in order. -/
inductive Items : List Bytes → List Bytes → List Bytes → Prop
  | none : Items [] [] []
  | item {w ws d ds o os : List Bytes} :
    Item w d o → Items ws ds os → Items (w ++ ws) (d ++ ds) (o ++ os)

/-- A complete command line: items, and possibly `--` followed by devices of any name. -/
inductive Complete : List Bytes → List Bytes → List Bytes → Prop
  | items {ws d o : List Bytes} : Items ws d o → Complete ws d o
  | escaped {ws d o rest : List Bytes} : Items ws d o → [] ∉ rest →
    Complete (ws ++ ascii "--" :: rest) (d ++ rest) o

/-- After some items, the help text is asked for; what follows does not matter. -/
def AsksHelp (args : List Bytes) : Prop :=
  ∃ ws d o w rest, args = ws ++ w :: rest ∧ Items ws d o ∧ (w = ascii "--help" ∨ ascii "-h" <+: w)

/-- After some items, the version is asked for. -/
def AsksVersion (args : List Bytes) : Prop :=
  ∃ ws d o w rest, args = ws ++ w :: rest ∧ Items ws d o ∧ (w = ascii "--version" ∨ ascii "-V" <+: w)

end CommandLine
end MdSpec
