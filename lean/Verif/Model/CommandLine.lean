import Verif.Model.Report

/-! The command line and the standard output of the program.  `Options` (src/main.rs 19-26) is parsed by code
that the crate `clap` (version 4.6.6) generates from it; that code and the crate are modelled after their
documented behaviour: `devices` is a positional argument with any number of values, `output` is an option with
one value that may be given again and again (`-o`, `--output`), `-h`, `--help`, `-V` and `--version` are added,
words are taken from left to right, and a value that is a path must not be empty.  What is said in messages
about wrong usage is not modelled. -/

namespace MdRecover

/-- What a word of the command line asks for (for src/main.rs 19-26): a value, all that follows taken as
values (`--`), an output that is the next word or part of the word, a text, or something unknown. -/
inductive Word where
  | value
  | escape
  | outputNext
  | output (v : Bytes)
  | help
  | version
  | wrong
  deriving DecidableEq

/-- An output given in the same word: a path must not be empty (`PathBufValueParser` of `clap`, for
src/main.rs 24-25). -/
def Word.outputValue (v : Bytes) : Word := if v = [] then .wrong else .output v

/-- A word that begins with `--` and goes on with `r` (`is_escape`, `to_long` of the crate `clap_lex` and
`parse_long_arg` of `clap`, for src/main.rs 19-26): `--`, `--name` or `--name=value`. -/
def Word.long (r : Bytes) : Word :=
  if r = [] then .escape
  else match r.dropWhile (· ≠ 61) with
    | [] =>
      if r = ascii "help" then .help
      else if r = ascii "version" then .version
      else if r = ascii "output" then .outputNext
      else .wrong
    | _ :: v => if r.takeWhile (· ≠ 61) = ascii "output" then .outputValue v else .wrong

/-- A word that begins with `-` and goes on with letters (`to_short` of the crate `clap_lex` and
`parse_short_arg` of `clap`, for src/main.rs 19-26): the first letter decides, as no letter stands for a flag
after which others are looked at. -/
def Word.short : Bytes → Word
  | 104 :: _ => .help
  | 86 :: _ => .version
  | 111 :: [] => .outputNext
  | 111 :: 61 :: v => .outputValue v
  | 111 :: v => .outputValue v
  | _ => .wrong

/-- What a word asks for (`get_matches_with` of `clap`, for src/main.rs 19-26). -/
def Word.of : Bytes → Word
  | [] => .wrong
  | [45] => .value
  | 45 :: 45 :: r => .long r
  | 45 :: r => .short r
  | _ => .value

/-- What parsing the command line comes to (src/main.rs 30): the options, a text that was asked for, or a
complaint about the usage. -/
inductive Parsed where
  | options (devices outputs : List Bytes)
  | help
  | version
  | usage
  deriving DecidableEq

/-- `Options::parse` (src/main.rs 19-26, 30) from the words after the name of the program; `devices` and
`outputs` are the values found so far. -/
def parseArgs (devices outputs : List Bytes) : List Bytes → Parsed
  | [] => .options devices outputs
  | w :: ws =>
    match Word.of w with
    | .value => parseArgs (devices ++ [w]) outputs ws
    | .escape => if ws.any List.isEmpty then .usage else .options (devices ++ ws) outputs
    | .output v => parseArgs devices (outputs ++ [v]) ws
    | .outputNext =>
      match ws with
      | [] => .usage
      | v :: ws' => if Word.of v = .value then parseArgs devices (outputs ++ [v]) ws' else .usage
    | .help => .help
    | .version => .version
    | .wrong => .usage

/-- The standard output (file descriptor 1, for src/main.rs 41, 44): it takes all that is written, or writing
fails after some number of bytes (a full disk, a reader that is gone), or the descriptor is not open for
writing, which the standard library ignores (`EBADF` is taken to be success). -/
inductive Stdout where
  | writable (room : Option Nat)
  | readOnly

/-- What arrives of a text (Rust std, for src/main.rs 41, 44).  Simplified: the writes are not told apart, the
room is the number of bytes taken in all. -/
def Stdout.arrived : Stdout → Bytes → Bytes
  | .writable none, text => text
  | .writable (some n), text => text.take n
  | .readOnly, _ => []

/-- Does writing the text fail (Rust std, for src/main.rs 41, 44)? -/
def Stdout.fails : Stdout → Bytes → Bool
  | .writable (some n), text => n < text.length
  | _, _ => false

/-- What is left of the process (for src/main.rs 29-47): what arrived on the standard output, and the exit
status. -/
structure Ended where
  output : Bytes
  status : Nat

/-- The process (src/main.rs 29-47) with the words `args` after its name.  `println!` panics if writing fails
(status 101); `clap` ignores such a failure, exits with status 0 after a text that was asked for, and with
status 2 after a complaint, which goes to the standard error. -/
def process (ord ord' ord'' : IterOrder) (printable : Nat → Bool) (quote : Bytes → Bytes)
    (message : ErrKind → Bytes) (helpText versionText : Bytes) (fs : Bytes → Except Nat OsFile)
    (out : Stdout) (args : List Bytes) (s : System) : System × Ended :=
  match parseArgs [] [] args with
  | .help => (s, ⟨out.arrived helpText, 0⟩)
  | .version => (s, ⟨out.arrived versionText, 0⟩)
  | .usage => (s, ⟨[], 2⟩)
  | .options devices _ =>
    match mainProgram ord ord' fs devices s with
    | (s', .ok printed) =>
      let text := printed.text ord'' printable quote message
      (s', ⟨out.arrived text, if out.fails text then 101 else exitStatus (.ok printed)⟩)
    | (s', r) => (s', ⟨[], exitStatus r⟩)

end MdRecover
