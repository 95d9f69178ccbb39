/-! Generated by tools/gen_huffman.py: the binary column of the table of RFC 7541 Appendix B
(`/repo/huffman/assets/hpack-huffman.txt`). Do not edit.

This is specification text: the codes as bit strings, most significant bit first, one per line; the line
number is the symbol (0-255 are octets, 256 is EOS). -/
namespace Verif.Spec

local notation "I" => true
local notation "O" => false

def rfcCodes : List (List Bool) := [
  [I, I, I, I, I, I, I, I, I, I, O, O, O],
  [I, I, I, I, I, I, I, I, I, I, I, I, I, I, I, I, I, O, I, I, O, O, O],
  [I, I, I, I, I, I, I, I, I, I, I, I, I, I, I, I, I, I, I, I, I, I, I, O, O, O, I, O],
  [I, I, I, I, I, I, I, I, I, I, I, I, I, I, I, I, I, I, I, I, I, I, I, O, O, O, I, I],
  [I, I, I, I, I, I, I, I, I, I, I, I, I, I, I, I, I, I, I, I, I, I, I, O, O, I, O, O],
  [I, I, I, I, I, I, I, I, I, I, I, I, I, I, I, I, I, I, I, I, I, I, I, O, O, I, O, I],
  [I, I, I, I, I, I, I, I, I, I, I, I, I, I, I, I, I, I, I, I, I, I, I, O, O, I, I, O],
  [I, I, I, I, I, I, I, I, I, I, I, I, I, I, I, I, I, I, I, I, I, I, I, O, O, I, I, I],
  [I, I, I, I, I, I, I, I, I, I, I, I, I, I, I, I, I, I, I, I, I, I, I, O, I, O, O, O],
  [I, I, I, I, I, I, I, I, I, I, I, I, I, I, I, I, I, I, I, O, I, O, I, O],
  [I, I, I, I, I, I, I, I, I, I, I, I, I, I, I, I, I, I, I, I, I, I, I, I, I, I, I, I, O, O],
  [I, I, I, I, I, I, I, I, I, I, I, I, I, I, I, I, I, I, I, I, I, I, I, O, I, O, O, I],
  [I, I, I, I, I, I, I, I, I, I, I, I, I, I, I, I, I, I, I, I, I, I, I, O, I, O, I, O],
  [I, I, I, I, I, I, I, I, I, I, I, I, I, I, I, I, I, I, I, I, I, I, I, I, I, I, I, I, O, I],
  [I, I, I, I, I, I, I, I, I, I, I, I, I, I, I, I, I, I, I, I, I, I, I, O, I, O, I, I],
  [I, I, I, I, I, I, I, I, I, I, I, I, I, I, I, I, I, I, I, I, I, I, I, O, I, I, O, O],
  [I, I, I, I, I, I, I, I, I, I, I, I, I, I, I, I, I, I, I, I, I, I, I, O, I, I, O, I],
  [I, I, I, I, I, I, I, I, I, I, I, I, I, I, I, I, I, I, I, I, I, I, I, O, I, I, I, O],
  [I, I, I, I, I, I, I, I, I, I, I, I, I, I, I, I, I, I, I, I, I, I, I, O, I, I, I, I],
  [I, I, I, I, I, I, I, I, I, I, I, I, I, I, I, I, I, I, I, I, I, I, I, I, O, O, O, O],
  [I, I, I, I, I, I, I, I, I, I, I, I, I, I, I, I, I, I, I, I, I, I, I, I, O, O, O, I],
  [I, I, I, I, I, I, I, I, I, I, I, I, I, I, I, I, I, I, I, I, I, I, I, I, O, O, I, O],
  [I, I, I, I, I, I, I, I, I, I, I, I, I, I, I, I, I, I, I, I, I, I, I, I, I, I, I, I, I, O],
  [I, I, I, I, I, I, I, I, I, I, I, I, I, I, I, I, I, I, I, I, I, I, I, I, O, O, I, I],
  [I, I, I, I, I, I, I, I, I, I, I, I, I, I, I, I, I, I, I, I, I, I, I, I, O, I, O, O],
  [I, I, I, I, I, I, I, I, I, I, I, I, I, I, I, I, I, I, I, I, I, I, I, I, O, I, O, I],
  [I, I, I, I, I, I, I, I, I, I, I, I, I, I, I, I, I, I, I, I, I, I, I, I, O, I, I, O],
  [I, I, I, I, I, I, I, I, I, I, I, I, I, I, I, I, I, I, I, I, I, I, I, I, O, I, I, I],
  [I, I, I, I, I, I, I, I, I, I, I, I, I, I, I, I, I, I, I, I, I, I, I, I, I, O, O, O],
  [I, I, I, I, I, I, I, I, I, I, I, I, I, I, I, I, I, I, I, I, I, I, I, I, I, O, O, I],
  [I, I, I, I, I, I, I, I, I, I, I, I, I, I, I, I, I, I, I, I, I, I, I, I, I, O, I, O],
  [I, I, I, I, I, I, I, I, I, I, I, I, I, I, I, I, I, I, I, I, I, I, I, I, I, O, I, I],
  [O, I, O, I, O, O],
  [I, I, I, I, I, I, I, O, O, O],
  [I, I, I, I, I, I, I, O, O, I],
  [I, I, I, I, I, I, I, I, I, O, I, O],
  [I, I, I, I, I, I, I, I, I, I, O, O, I],
  [O, I, O, I, O, I],
  [I, I, I, I, I, O, O, O],
  [I, I, I, I, I, I, I, I, O, I, O],
  [I, I, I, I, I, I, I, O, I, O],
  [I, I, I, I, I, I, I, O, I, I],
  [I, I, I, I, I, O, O, I],
  [I, I, I, I, I, I, I, I, O, I, I],
  [I, I, I, I, I, O, I, O],
  [O, I, O, I, I, O],
  [O, I, O, I, I, I],
  [O, I, I, O, O, O],
  [O, O, O, O, O],
  [O, O, O, O, I],
  [O, O, O, I, O],
  [O, I, I, O, O, I],
  [O, I, I, O, I, O],
  [O, I, I, O, I, I],
  [O, I, I, I, O, O],
  [O, I, I, I, O, I],
  [O, I, I, I, I, O],
  [O, I, I, I, I, I],
  [I, O, I, I, I, O, O],
  [I, I, I, I, I, O, I, I],
  [I, I, I, I, I, I, I, I, I, I, I, I, I, O, O],
  [I, O, O, O, O, O],
  [I, I, I, I, I, I, I, I, I, O, I, I],
  [I, I, I, I, I, I, I, I, O, O],
  [I, I, I, I, I, I, I, I, I, I, O, I, O],
  [I, O, O, O, O, I],
  [I, O, I, I, I, O, I],
  [I, O, I, I, I, I, O],
  [I, O, I, I, I, I, I],
  [I, I, O, O, O, O, O],
  [I, I, O, O, O, O, I],
  [I, I, O, O, O, I, O],
  [I, I, O, O, O, I, I],
  [I, I, O, O, I, O, O],
  [I, I, O, O, I, O, I],
  [I, I, O, O, I, I, O],
  [I, I, O, O, I, I, I],
  [I, I, O, I, O, O, O],
  [I, I, O, I, O, O, I],
  [I, I, O, I, O, I, O],
  [I, I, O, I, O, I, I],
  [I, I, O, I, I, O, O],
  [I, I, O, I, I, O, I],
  [I, I, O, I, I, I, O],
  [I, I, O, I, I, I, I],
  [I, I, I, O, O, O, O],
  [I, I, I, O, O, O, I],
  [I, I, I, O, O, I, O],
  [I, I, I, I, I, I, O, O],
  [I, I, I, O, O, I, I],
  [I, I, I, I, I, I, O, I],
  [I, I, I, I, I, I, I, I, I, I, O, I, I],
  [I, I, I, I, I, I, I, I, I, I, I, I, I, I, I, O, O, O, O],
  [I, I, I, I, I, I, I, I, I, I, I, O, O],
  [I, I, I, I, I, I, I, I, I, I, I, I, O, O],
  [I, O, O, O, I, O],
  [I, I, I, I, I, I, I, I, I, I, I, I, I, O, I],
  [O, O, O, I, I],
  [I, O, O, O, I, I],
  [O, O, I, O, O],
  [I, O, O, I, O, O],
  [O, O, I, O, I],
  [I, O, O, I, O, I],
  [I, O, O, I, I, O],
  [I, O, O, I, I, I],
  [O, O, I, I, O],
  [I, I, I, O, I, O, O],
  [I, I, I, O, I, O, I],
  [I, O, I, O, O, O],
  [I, O, I, O, O, I],
  [I, O, I, O, I, O],
  [O, O, I, I, I],
  [I, O, I, O, I, I],
  [I, I, I, O, I, I, O],
  [I, O, I, I, O, O],
  [O, I, O, O, O],
  [O, I, O, O, I],
  [I, O, I, I, O, I],
  [I, I, I, O, I, I, I],
  [I, I, I, I, O, O, O],
  [I, I, I, I, O, O, I],
  [I, I, I, I, O, I, O],
  [I, I, I, I, O, I, I],
  [I, I, I, I, I, I, I, I, I, I, I, I, I, I, O],
  [I, I, I, I, I, I, I, I, I, O, O],
  [I, I, I, I, I, I, I, I, I, I, I, I, O, I],
  [I, I, I, I, I, I, I, I, I, I, I, O, I],
  [I, I, I, I, I, I, I, I, I, I, I, I, I, I, I, I, I, I, I, I, I, I, I, I, I, I, O, O],
  [I, I, I, I, I, I, I, I, I, I, I, I, I, I, I, O, O, I, I, O],
  [I, I, I, I, I, I, I, I, I, I, I, I, I, I, I, I, O, I, O, O, I, O],
  [I, I, I, I, I, I, I, I, I, I, I, I, I, I, I, O, O, I, I, I],
  [I, I, I, I, I, I, I, I, I, I, I, I, I, I, I, O, I, O, O, O],
  [I, I, I, I, I, I, I, I, I, I, I, I, I, I, I, I, O, I, O, O, I, I],
  [I, I, I, I, I, I, I, I, I, I, I, I, I, I, I, I, O, I, O, I, O, O],
  [I, I, I, I, I, I, I, I, I, I, I, I, I, I, I, I, O, I, O, I, O, I],
  [I, I, I, I, I, I, I, I, I, I, I, I, I, I, I, I, I, O, I, I, O, O, I],
  [I, I, I, I, I, I, I, I, I, I, I, I, I, I, I, I, O, I, O, I, I, O],
  [I, I, I, I, I, I, I, I, I, I, I, I, I, I, I, I, I, O, I, I, O, I, O],
  [I, I, I, I, I, I, I, I, I, I, I, I, I, I, I, I, I, O, I, I, O, I, I],
  [I, I, I, I, I, I, I, I, I, I, I, I, I, I, I, I, I, O, I, I, I, O, O],
  [I, I, I, I, I, I, I, I, I, I, I, I, I, I, I, I, I, O, I, I, I, O, I],
  [I, I, I, I, I, I, I, I, I, I, I, I, I, I, I, I, I, O, I, I, I, I, O],
  [I, I, I, I, I, I, I, I, I, I, I, I, I, I, I, I, I, I, I, O, I, O, I, I],
  [I, I, I, I, I, I, I, I, I, I, I, I, I, I, I, I, I, O, I, I, I, I, I],
  [I, I, I, I, I, I, I, I, I, I, I, I, I, I, I, I, I, I, I, O, I, I, O, O],
  [I, I, I, I, I, I, I, I, I, I, I, I, I, I, I, I, I, I, I, O, I, I, O, I],
  [I, I, I, I, I, I, I, I, I, I, I, I, I, I, I, I, O, I, O, I, I, I],
  [I, I, I, I, I, I, I, I, I, I, I, I, I, I, I, I, I, I, O, O, O, O, O],
  [I, I, I, I, I, I, I, I, I, I, I, I, I, I, I, I, I, I, I, O, I, I, I, O],
  [I, I, I, I, I, I, I, I, I, I, I, I, I, I, I, I, I, I, O, O, O, O, I],
  [I, I, I, I, I, I, I, I, I, I, I, I, I, I, I, I, I, I, O, O, O, I, O],
  [I, I, I, I, I, I, I, I, I, I, I, I, I, I, I, I, I, I, O, O, O, I, I],
  [I, I, I, I, I, I, I, I, I, I, I, I, I, I, I, I, I, I, O, O, I, O, O],
  [I, I, I, I, I, I, I, I, I, I, I, I, I, I, I, O, I, I, I, O, O],
  [I, I, I, I, I, I, I, I, I, I, I, I, I, I, I, I, O, I, I, O, O, O],
  [I, I, I, I, I, I, I, I, I, I, I, I, I, I, I, I, I, I, O, O, I, O, I],
  [I, I, I, I, I, I, I, I, I, I, I, I, I, I, I, I, O, I, I, O, O, I],
  [I, I, I, I, I, I, I, I, I, I, I, I, I, I, I, I, I, I, O, O, I, I, O],
  [I, I, I, I, I, I, I, I, I, I, I, I, I, I, I, I, I, I, O, O, I, I, I],
  [I, I, I, I, I, I, I, I, I, I, I, I, I, I, I, I, I, I, I, O, I, I, I, I],
  [I, I, I, I, I, I, I, I, I, I, I, I, I, I, I, I, O, I, I, O, I, O],
  [I, I, I, I, I, I, I, I, I, I, I, I, I, I, I, O, I, I, I, O, I],
  [I, I, I, I, I, I, I, I, I, I, I, I, I, I, I, O, I, O, O, I],
  [I, I, I, I, I, I, I, I, I, I, I, I, I, I, I, I, O, I, I, O, I, I],
  [I, I, I, I, I, I, I, I, I, I, I, I, I, I, I, I, O, I, I, I, O, O],
  [I, I, I, I, I, I, I, I, I, I, I, I, I, I, I, I, I, I, O, I, O, O, O],
  [I, I, I, I, I, I, I, I, I, I, I, I, I, I, I, I, I, I, O, I, O, O, I],
  [I, I, I, I, I, I, I, I, I, I, I, I, I, I, I, O, I, I, I, I, O],
  [I, I, I, I, I, I, I, I, I, I, I, I, I, I, I, I, I, I, O, I, O, I, O],
  [I, I, I, I, I, I, I, I, I, I, I, I, I, I, I, I, O, I, I, I, O, I],
  [I, I, I, I, I, I, I, I, I, I, I, I, I, I, I, I, O, I, I, I, I, O],
  [I, I, I, I, I, I, I, I, I, I, I, I, I, I, I, I, I, I, I, I, O, O, O, O],
  [I, I, I, I, I, I, I, I, I, I, I, I, I, I, I, O, I, I, I, I, I],
  [I, I, I, I, I, I, I, I, I, I, I, I, I, I, I, I, O, I, I, I, I, I],
  [I, I, I, I, I, I, I, I, I, I, I, I, I, I, I, I, I, I, O, I, O, I, I],
  [I, I, I, I, I, I, I, I, I, I, I, I, I, I, I, I, I, I, O, I, I, O, O],
  [I, I, I, I, I, I, I, I, I, I, I, I, I, I, I, I, O, O, O, O, O],
  [I, I, I, I, I, I, I, I, I, I, I, I, I, I, I, I, O, O, O, O, I],
  [I, I, I, I, I, I, I, I, I, I, I, I, I, I, I, I, I, O, O, O, O, O],
  [I, I, I, I, I, I, I, I, I, I, I, I, I, I, I, I, O, O, O, I, O],
  [I, I, I, I, I, I, I, I, I, I, I, I, I, I, I, I, I, I, O, I, I, O, I],
  [I, I, I, I, I, I, I, I, I, I, I, I, I, I, I, I, I, O, O, O, O, I],
  [I, I, I, I, I, I, I, I, I, I, I, I, I, I, I, I, I, I, O, I, I, I, O],
  [I, I, I, I, I, I, I, I, I, I, I, I, I, I, I, I, I, I, O, I, I, I, I],
  [I, I, I, I, I, I, I, I, I, I, I, I, I, I, I, O, I, O, I, O],
  [I, I, I, I, I, I, I, I, I, I, I, I, I, I, I, I, I, O, O, O, I, O],
  [I, I, I, I, I, I, I, I, I, I, I, I, I, I, I, I, I, O, O, O, I, I],
  [I, I, I, I, I, I, I, I, I, I, I, I, I, I, I, I, I, O, O, I, O, O],
  [I, I, I, I, I, I, I, I, I, I, I, I, I, I, I, I, I, I, I, O, O, O, O],
  [I, I, I, I, I, I, I, I, I, I, I, I, I, I, I, I, I, O, O, I, O, I],
  [I, I, I, I, I, I, I, I, I, I, I, I, I, I, I, I, I, O, O, I, I, O],
  [I, I, I, I, I, I, I, I, I, I, I, I, I, I, I, I, I, I, I, O, O, O, I],
  [I, I, I, I, I, I, I, I, I, I, I, I, I, I, I, I, I, I, I, I, I, O, O, O, O, O],
  [I, I, I, I, I, I, I, I, I, I, I, I, I, I, I, I, I, I, I, I, I, O, O, O, O, I],
  [I, I, I, I, I, I, I, I, I, I, I, I, I, I, I, O, I, O, I, I],
  [I, I, I, I, I, I, I, I, I, I, I, I, I, I, I, O, O, O, I],
  [I, I, I, I, I, I, I, I, I, I, I, I, I, I, I, I, I, O, O, I, I, I],
  [I, I, I, I, I, I, I, I, I, I, I, I, I, I, I, I, I, I, I, O, O, I, O],
  [I, I, I, I, I, I, I, I, I, I, I, I, I, I, I, I, I, O, I, O, O, O],
  [I, I, I, I, I, I, I, I, I, I, I, I, I, I, I, I, I, I, I, I, O, I, I, O, O],
  [I, I, I, I, I, I, I, I, I, I, I, I, I, I, I, I, I, I, I, I, I, O, O, O, I, O],
  [I, I, I, I, I, I, I, I, I, I, I, I, I, I, I, I, I, I, I, I, I, O, O, O, I, I],
  [I, I, I, I, I, I, I, I, I, I, I, I, I, I, I, I, I, I, I, I, I, O, O, I, O, O],
  [I, I, I, I, I, I, I, I, I, I, I, I, I, I, I, I, I, I, I, I, I, O, I, I, I, I, O],
  [I, I, I, I, I, I, I, I, I, I, I, I, I, I, I, I, I, I, I, I, I, O, I, I, I, I, I],
  [I, I, I, I, I, I, I, I, I, I, I, I, I, I, I, I, I, I, I, I, I, O, O, I, O, I],
  [I, I, I, I, I, I, I, I, I, I, I, I, I, I, I, I, I, I, I, I, O, O, O, I],
  [I, I, I, I, I, I, I, I, I, I, I, I, I, I, I, I, I, I, I, I, O, I, I, O, I],
  [I, I, I, I, I, I, I, I, I, I, I, I, I, I, I, O, O, I, O],
  [I, I, I, I, I, I, I, I, I, I, I, I, I, I, I, I, O, O, O, I, I],
  [I, I, I, I, I, I, I, I, I, I, I, I, I, I, I, I, I, I, I, I, I, O, O, I, I, O],
  [I, I, I, I, I, I, I, I, I, I, I, I, I, I, I, I, I, I, I, I, I, I, O, O, O, O, O],
  [I, I, I, I, I, I, I, I, I, I, I, I, I, I, I, I, I, I, I, I, I, I, O, O, O, O, I],
  [I, I, I, I, I, I, I, I, I, I, I, I, I, I, I, I, I, I, I, I, I, O, O, I, I, I],
  [I, I, I, I, I, I, I, I, I, I, I, I, I, I, I, I, I, I, I, I, I, I, O, O, O, I, O],
  [I, I, I, I, I, I, I, I, I, I, I, I, I, I, I, I, I, I, I, I, O, O, I, O],
  [I, I, I, I, I, I, I, I, I, I, I, I, I, I, I, I, O, O, I, O, O],
  [I, I, I, I, I, I, I, I, I, I, I, I, I, I, I, I, O, O, I, O, I],
  [I, I, I, I, I, I, I, I, I, I, I, I, I, I, I, I, I, I, I, I, I, O, I, O, O, O],
  [I, I, I, I, I, I, I, I, I, I, I, I, I, I, I, I, I, I, I, I, I, O, I, O, O, I],
  [I, I, I, I, I, I, I, I, I, I, I, I, I, I, I, I, I, I, I, I, I, I, I, I, I, I, O, I],
  [I, I, I, I, I, I, I, I, I, I, I, I, I, I, I, I, I, I, I, I, I, I, O, O, O, I, I],
  [I, I, I, I, I, I, I, I, I, I, I, I, I, I, I, I, I, I, I, I, I, I, O, O, I, O, O],
  [I, I, I, I, I, I, I, I, I, I, I, I, I, I, I, I, I, I, I, I, I, I, O, O, I, O, I],
  [I, I, I, I, I, I, I, I, I, I, I, I, I, I, I, O, I, I, O, O],
  [I, I, I, I, I, I, I, I, I, I, I, I, I, I, I, I, I, I, I, I, O, O, I, I],
  [I, I, I, I, I, I, I, I, I, I, I, I, I, I, I, O, I, I, O, I],
  [I, I, I, I, I, I, I, I, I, I, I, I, I, I, I, I, O, O, I, I, O],
  [I, I, I, I, I, I, I, I, I, I, I, I, I, I, I, I, I, O, I, O, O, I],
  [I, I, I, I, I, I, I, I, I, I, I, I, I, I, I, I, O, O, I, I, I],
  [I, I, I, I, I, I, I, I, I, I, I, I, I, I, I, I, O, I, O, O, O],
  [I, I, I, I, I, I, I, I, I, I, I, I, I, I, I, I, I, I, I, O, O, I, I],
  [I, I, I, I, I, I, I, I, I, I, I, I, I, I, I, I, I, O, I, O, I, O],
  [I, I, I, I, I, I, I, I, I, I, I, I, I, I, I, I, I, O, I, O, I, I],
  [I, I, I, I, I, I, I, I, I, I, I, I, I, I, I, I, I, I, I, I, O, I, I, I, O],
  [I, I, I, I, I, I, I, I, I, I, I, I, I, I, I, I, I, I, I, I, O, I, I, I, I],
  [I, I, I, I, I, I, I, I, I, I, I, I, I, I, I, I, I, I, I, I, O, I, O, O],
  [I, I, I, I, I, I, I, I, I, I, I, I, I, I, I, I, I, I, I, I, O, I, O, I],
  [I, I, I, I, I, I, I, I, I, I, I, I, I, I, I, I, I, I, I, I, I, O, I, O, I, O],
  [I, I, I, I, I, I, I, I, I, I, I, I, I, I, I, I, I, I, I, O, I, O, O],
  [I, I, I, I, I, I, I, I, I, I, I, I, I, I, I, I, I, I, I, I, I, O, I, O, I, I],
  [I, I, I, I, I, I, I, I, I, I, I, I, I, I, I, I, I, I, I, I, I, I, O, O, I, I, O],
  [I, I, I, I, I, I, I, I, I, I, I, I, I, I, I, I, I, I, I, I, I, O, I, I, O, O],
  [I, I, I, I, I, I, I, I, I, I, I, I, I, I, I, I, I, I, I, I, I, O, I, I, O, I],
  [I, I, I, I, I, I, I, I, I, I, I, I, I, I, I, I, I, I, I, I, I, I, O, O, I, I, I],
  [I, I, I, I, I, I, I, I, I, I, I, I, I, I, I, I, I, I, I, I, I, I, O, I, O, O, O],
  [I, I, I, I, I, I, I, I, I, I, I, I, I, I, I, I, I, I, I, I, I, I, O, I, O, O, I],
  [I, I, I, I, I, I, I, I, I, I, I, I, I, I, I, I, I, I, I, I, I, I, O, I, O, I, O],
  [I, I, I, I, I, I, I, I, I, I, I, I, I, I, I, I, I, I, I, I, I, I, O, I, O, I, I],
  [I, I, I, I, I, I, I, I, I, I, I, I, I, I, I, I, I, I, I, I, I, I, I, I, I, I, I, O],
  [I, I, I, I, I, I, I, I, I, I, I, I, I, I, I, I, I, I, I, I, I, I, O, I, I, O, O],
  [I, I, I, I, I, I, I, I, I, I, I, I, I, I, I, I, I, I, I, I, I, I, O, I, I, O, I],
  [I, I, I, I, I, I, I, I, I, I, I, I, I, I, I, I, I, I, I, I, I, I, O, I, I, I, O],
  [I, I, I, I, I, I, I, I, I, I, I, I, I, I, I, I, I, I, I, I, I, I, O, I, I, I, I],
  [I, I, I, I, I, I, I, I, I, I, I, I, I, I, I, I, I, I, I, I, I, I, I, O, O, O, O],
  [I, I, I, I, I, I, I, I, I, I, I, I, I, I, I, I, I, I, I, I, I, O, I, I, I, O],
  [I, I, I, I, I, I, I, I, I, I, I, I, I, I, I, I, I, I, I, I, I, I, I, I, I, I, I, I, I, I]]

end Verif.Spec
