import Verif.Model.CliLog

/-! # `write_shell_completion` of the command line tool: `dynamixel2-cli/src/bin/dynamixel2/main.rs:202-231`

What `clap_complete::generate` puts into the buffer is a parameter. Paths are those of Unix: bytes, separated by `/`. -/

namespace Dxl
namespace Cli

/-- `std::path::Component` on Unix; `dynamixel2-cli/src/bin/dynamixel2/main.rs:215`. -/
inductive Component where
  | rootDir
  | curDir
  | parentDir
  | normal (name : List Byte)
  deriving Repr, DecidableEq

/-- The parts of a path between the slashes, `dynamixel2-cli/src/bin/dynamixel2/main.rs:215`. -/
def pieces : List Byte → List (List Byte)
  | [] => [[]]
  | c :: path =>
    if c = 0x2F#8 then [] :: pieces path
    else match pieces path with
      | [] => [[c]]
      | piece :: rest => (c :: piece) :: rest

/-- The component for a part of a path, other than the first: empty parts and `.` are skipped. From the standard library; used by
`dynamixel2-cli/src/bin/dynamixel2/main.rs:215`. -/
def component : List Byte → Option Component
  | [] => none
  | [0x2E#8] => none
  | [0x2E#8, 0x2E#8] => some .parentDir
  | name => some (.normal name)

/-- `Path::components` of the standard library, on Unix; used by `dynamixel2-cli/src/bin/dynamixel2/main.rs:215`. A first `.` is
kept. -/
def components (path : List Byte) : List Component :=
  match pieces path with
  | [] => []
  | first :: rest =>
    (if first = [] then if path = [] then [] else [.rootDir]
      else if first = [0x2E#8] then [.curDir] else (component first).toList) ++ rest.filterMap component

/-- `Path == Path` of the standard library: the components are compared, `dynamixel2-cli/src/bin/dynamixel2/main.rs:215`. -/
def samePath (a b : List Byte) : Bool := components a == components b

/-- What the program uses apart from the serial port, `dynamixel2-cli/src/bin/dynamixel2/main.rs:217-228`: standard output, the
files by their paths, the messages, and what goes wrong. `stdoutFault` and `fileFault` are for `write_all`: how many bytes are
written before an error. -/
structure Outside where
  stdout : List Byte
  files : List Byte → Option (List Byte)
  records : List Record
  stdoutFault : Option (Nat × IoErr)
  createFault : Option IoErr
  fileFault : Option (Nat × IoErr)

/-- `write_all`, `dynamixel2-cli/src/bin/dynamixel2/main.rs:218-221, 225-227`: what is written, and the result. -/
def faulty (fault : Option (Nat × IoErr)) (buffer : List Byte) : List Byte × Outcome IoErr Unit :=
  match fault with
  | none => (buffer, .ok ())
  | some (n, e) => (buffer.take n, .err e)

/-- `write_all` to standard output, `dynamixel2-cli/src/bin/dynamixel2/main.rs:217-220`. -/
def writeStdout (buffer : List Byte) : SO Outside IoErr Unit := fun o =>
  ({ o with stdout := o.stdout ++ (faulty o.stdoutFault buffer).1 }, (faulty o.stdoutFault buffer).2)

/-- `File::create`, `dynamixel2-cli/src/bin/dynamixel2/main.rs:224`: the file is empty, whatever it was. -/
def createFile (path : List Byte) : SO Outside IoErr Unit := fun o =>
  match o.createFault with
  | some e => (o, .err e)
  | none => ({ o with files := fun p => if p = path then some [] else o.files p }, .ok ())

/-- `write_all` to that file, `dynamixel2-cli/src/bin/dynamixel2/main.rs:225-226`. -/
def writeFile (path buffer : List Byte) : SO Outside IoErr Unit := fun o =>
  ({ o with files := fun p => if p = path then some (((o.files path).getD []) ++ (faulty o.fileFault buffer).1) else o.files p },
    (faulty o.fileFault buffer).2)

/-- `log::debug!`, `dynamixel2-cli/src/bin/dynamixel2/main.rs:216, 223`. -/
def noteDebug {ε : Type} (text : List Char) : SO Outside ε Unit :=
  SO.modify fun o => { o with records := o.records ++ [⟨"dynamixel2".toList, .debug, text⟩] }

/-- `map_err(|e| log::error!(…))?`, `dynamixel2-cli/src/bin/dynamixel2/main.rs:221, 224, 227`. -/
def orGiveUp {ε α : Type} (text : ε → List Char) (m : SO Outside ε α) : SO Outside Unit α := do
  match ← m.attempt with
  | .ok a => pure a
  | .error e => do
    SO.modify fun o => { o with records := o.records ++ [ownRecord (.error, text e)] }
    SO.throw ()

/-- `b"\n"` at the end, `dynamixel2-cli/src/bin/dynamixel2/main.rs:210-212`. -/
def withNewline (buffer : List Byte) : List Byte :=
  if buffer.getLast? = some 0x0A#8 then buffer else buffer ++ [0x0A#8]

/-- `write_shell_completion`, `dynamixel2-cli/src/bin/dynamixel2/main.rs:202-231`. `generated` is the buffer after line 209, `shell`
the name of the shell and `display` that of a path. -/
def writeShellCompletion (io : IoErr → List Char) (display : List Byte → List Char) (shell : List Char) (generated : List Byte)
    (path : Option (List Byte)) : SO Outside Unit Unit := do
  let buffer := withNewline generated
  let path := path.getD [0x2D#8]
  if samePath path [0x2D#8] then do
    noteDebug ("Writing shell completion for ".toList ++ shell ++ " to stdout".toList)
    orGiveUp (fun e => "Failed to write to stdout: ".toList ++ io e) (writeStdout buffer)
  else do
    noteDebug ("Writing shell completion for ".toList ++ shell ++ " to ".toList ++ display path)
    orGiveUp (fun e => "Failed to create ".toList ++ display path ++ ": ".toList ++ io e) (createFile path)
    orGiveUp (fun e => "Failed to write to ".toList ++ display path ++ ": ".toList ++ io e) (writeFile path buffer)

/-- The program with this command, `dynamixel2-cli/src/bin/dynamixel2/main.rs:9-13, 173-175`: the exit code. -/
def completionMain (io : IoErr → List Char) (display : List Byte → List Char) (shell : List Char) (generated : List Byte)
    (path : Option (List Byte)) (o : Outside) : Outside × Outcome Empty Nat :=
  match writeShellCompletion io display shell generated path o with
  | (o, .ok ()) => (o, .ok 0)
  | (o, .err ()) => (o, .ok 1)
  | (o, .panic) => (o, .panic)
  | (o, .hang) => (o, .hang)

end Cli
end Dxl
