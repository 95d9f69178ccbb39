import Verif.Spec.Hpack
/-! Specification of UTF-8 (RFC 3629 section 3): the table of octet sequences by character number. -/
namespace Verif.Spec

/-- The octets of the character number `c`. -/
def utf8 (c : Nat) : Octets :=
  if c < 0x80 then [UInt8.ofNat c]
  else if c < 0x800 then [UInt8.ofNat (0xC0 + c / 64), UInt8.ofNat (0x80 + c % 64)]
  else if c < 0x10000 then [UInt8.ofNat (0xE0 + c / 4096), UInt8.ofNat (0x80 + c / 64 % 64), UInt8.ofNat (0x80 + c % 64)]
  else [UInt8.ofNat (0xF0 + c / 262144), UInt8.ofNat (0x80 + c / 4096 % 64), UInt8.ofNat (0x80 + c / 64 % 64),
    UInt8.ofNat (0x80 + c % 64)]

/-- The octets of a text, a sequence of Unicode scalar values. -/
def utf8Text (s : String) : Octets := s.toList.flatMap fun c => utf8 c.toNat

end Verif.Spec
