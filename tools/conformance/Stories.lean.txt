import Lean.Data.Json
import Verif.Hpack.Decoder
/-! Runs the model of `Decoder::decode` on the stories of /repo/hpack/fixtures (real HPACK streams made by other encoders) and
compares every header with the expected one. A test of the model, not a proof; not part of the build.

  cd /verif/lean && lake build Verif.Hpack.Decoder && lake env lean --run /tmp/Stories.lean FILES
-/
open Lean Verif Verif.Hpack

def hexVal (c : Char) : Nat :=
  if c.isDigit then c.toNat - 48 else if 97 ≤ c.toNat then c.toNat - 87 else c.toNat - 55

def unhex : List Char → List UInt8
  | a :: b :: r => UInt8.ofNat (16 * hexVal a + hexVal b) :: unhex r
  | _ => []

def bytesOf (s : String) : List UInt8 := s.toUTF8.toList

def orThrow {α} : Except String α → IO α
  | .ok a => pure a
  | .error e => throw (IO.userError e)

def main (files : List String) : IO UInt32 := do
  let mut cases := 0
  let mut headers := 0
  let mut bad := 0
  for f in files do
    let j ← orThrow (Json.parse (← IO.FS.readFile f))
    let arr ← orThrow (j.getObjVal? "cases" >>= Json.getArr?)
    -- the fixtures with another initial table size say so; the test of the repository ignores it and uses the default
    let mut st : DecoderState := DecoderState.default
    for c in arr do
      let wire ← orThrow (c.getObjVal? "wire" >>= Json.getStr?)
      let hs ← orThrow (c.getObjVal? "headers" >>= Json.getArr?)
      let mut want : List (Bytes × Bytes) := []
      for h in hs do
        let o ← orThrow h.getObj?
        for (k, v) in o.toList do
          want := (bytesOf k, bytesOf (← orThrow v.getStr?)) :: want
      want := want.reverse
      match decode { st with buf := unhex wire.toList, dst := [] } with
      | (.ok _, st') =>
        let got := st'.dst.map fun h => (h.1, h.2.1)
        if got != want || !st'.buf.isEmpty then
          bad := bad + 1
          IO.println s!"MISMATCH {f} case {cases}"
        cases := cases + 1
        headers := headers + want.length
        st := st'
      | _ =>
        bad := bad + 1
        IO.println s!"FAILED {f} case {cases}"
  IO.println s!"{files.length} files, {cases} cases, {headers} headers, {bad} bad"
  return (if bad = 0 then 0 else 1)
