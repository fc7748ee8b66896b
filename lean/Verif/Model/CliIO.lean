/-
Model of /repo/radolan2png/radolan2png.go, main and convert with their effects on files.
-/
import Verif.Model.Cli

namespace Radolan.CliIO
open Go Radolan.Vis Radolan.Cli

abbrev Path := Bytes

/-- the contents of the files that exist (directories and permissions are part of `Os`) -/
abbrev Files := Path → Option Bytes

/-- What the operating system and package image/png decide; theorems hold for every choice.
`openOK`: os.Open succeeds on an existing file. `delivers`: how many bytes of the file can be read before a read error
(or the end). `createOK`: os.Create succeeds (if not, the file is left alone). `encode`: the chunks png.Encode writes
for an image and whether it (including the writes to the file) ends without an error. -/
structure Os where
  openOK : Path → Bool
  delivers : Path → Nat
  createOK : Path → Bool
  encode : Img → List Bytes × Bool

/-- an observable effect, in order: the usage message with the name of the program, the summary line (radolan2png.go:42), the grid size
(radolan2png.go:69), truncation or creation of a file, appending bytes to a file -/
inductive Event where
  | usage (prog : Path)
  | summary (product : Bytes) (unit : Int) (forecast : Int)
  | gridSize (width height : F64)
  | create (p : Path)
  | append (p : Path) (b : Bytes)

/-- how the program ends: exit status 0, `log.Fatal` (status 1), an uncaught panic (status 2) -/
inductive Exit where
  | ok | fatal | panic
  deriving DecidableEq, Repr

/-- the effect of an event on the files -/
def Event.apply (fs : Files) : Event → Files
  | .create p => fun q => if q = p then some [] else fs q
  | .append p b => fun q => if q = p then (fs q).map (· ++ b) else fs q
  | _ => fs

/-- the files after a sequence of events -/
def after (fs : Files) (es : List Event) : Files := es.foldl Event.apply fs

/-- radolan2png.go:91-97: create the output file and encode the image into it -/
def writeOut (os : Os) (out : Path) (img : Img) : List Event × Exit :=
  if !os.createOK out then ([], .fatal)
  else
    let r := os.encode img
    (.create out :: r.1.map (.append out), if r.2 then .ok else .fatal)

/-- radolan2png.go:69: the arguments of the printed grid size -/
def gridSize (c : Composite) : Event :=
  .gridSize (Fl.mul (Fl.lit f64 (c.dx : ℚ)) c.rx) (Fl.mul (Fl.lit f64 (c.dy : ℚ)) c.ry)

/-- radolan2png.go:42-97, after NewComposite has returned a composite and a nil error -/
def draw (E : Env) (I : Impl) (border : List (F64 × F64)) (os : Os) (out : Path) (c : Composite) : List Event × Exit :=
  let e1 := Event.summary c.product c.dataUnit c.forecastTime
  match colorFunc I E.math c with
  | none => ([e1], .panic)
  | some fn =>
    match Image fn c 0 with
    | none => ([e1], .panic)
    | some img =>
      if c.hasProjection then
        match meshPoints I with
        | none => ([e1, gridSize c], .panic)
        | some mesh =>
          let w := writeOut os out (drawPoints E I c meshColor mesh (drawPoints E I c borderColor border img))
          (e1 :: gridSize c :: w.1, w.2)
      else
        let w := writeOut os out img
        (e1 :: w.1, w.2)

/-- radolan2png.go:33-98: the events of `convert(in, out)` started on the files `fs`, and how it ends. (The input is
read completely before the first event; closing files at the end has no modelled effect.) -/
def convert (E : Env) (I : Impl) (border : List (F64 × F64)) (os : Os) (fs : Files) (inp out : Path) :
    List Event × Exit :=
  match fs inp with
  | none => ([], .fatal)
  | some content =>
    if !os.openOK inp then ([], .fatal)
    else
      match NewComposite E (content.take (os.delivers inp)) with
      | .panic => ([], .panic)
      | .ret _ (some _) => ([], .fatal)
      | .ret c none => draw E I border os out c

/-- radolan2png.go:22-31: main with the command line `args` (args[0] is the program name; an empty command line panics) -/
def main (E : Env) (I : Impl) (border : List (F64 × F64)) (os : Os) (fs : Files) (args : List Path) :
    List Event × Exit :=
  match args with
  | _ :: inp :: out :: _ => convert E I border os fs inp out
  | prog :: _ => ([.usage prog], .ok)
  | [] => ([], .panic)

end Radolan.CliIO
