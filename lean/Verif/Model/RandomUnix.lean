import Verif.Base.Mem
/-! # `lib/random.c` in the default build (`KRIPTO_UNIX`): the operating system's random device -/
namespace Kripto.RandomUnix
open Res

/-- What reading a device byte by byte brings forth: at each event a byte, or none (end of file or an error). -/
abbrev Dev := Nat → Option Byte

/-- What lib/random.c:180-246 `kripto_random_create` sees of its surroundings: the environment variable `KRIPTO_RANDOM` and the files
that can be opened. -/
structure Env where
  kriptoRandom : Option String
  files : String → Option Dev

/-- The open `FILE` that lib/random.c:180-246 casts to `kripto_random`: a device and the number of events that have been used. The buffer of
stdio only moves reading ahead of time and is not modelled. -/
structure File where
  dev : Dev
  pos : Nat

/-- lib/random.c:180-246 `kripto_random_create`, branch `KRIPTO_DEV_RANDOM`; `fail` is the result 0. -/
def kripto_random_create (e : Env) : Res File :=
  let name := match e.kriptoRandom with
    | some n => n
    | none => "/dev/urandom"
  match e.files name with
  | some d => ok ⟨d, 0⟩
  | none => fail

/-- The bytes that `fread(out, 1, n, f)` in lib/random.c:248-303 gets, until one is missing, and the number of events it uses. -/
def readUpTo (d : Dev) : Nat → Nat → List Byte
  | 0, _ => []
  | n + 1, pos => match d pos with
    | some b => b :: readUpTo d n (pos + 1)
    | none => []

/-- lib/random.c:248-303 `kripto_random_gen`, branch `KRIPTO_DEV_RANDOM`: the number of bytes, the memory and the file after the call. -/
def kripto_random_gen (s : Option File) (m : Mem) (out len : Nat) : Res (Nat × Mem × File) :=
  match s with
  | none => abort
  | some f => do
    let l := readUpTo f.dev len f.pos
    let m ← stL m out l
    ok (l.length, m, { f with pos := if l.length < len then f.pos + l.length + 1 else f.pos + l.length })

end Kripto.RandomUnix
