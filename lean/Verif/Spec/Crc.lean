/-! Bit-serial CRC: the textbook shift register, least significant bit first. -/
namespace Armips.Spec

/-- Shift one message bit into a reflected CRC register with feedback polynomial `poly`. -/
def crcBit {n : Nat} (poly : BitVec n) (crc : BitVec n) (bit : Bool) : BitVec n :=
  if crc.getLsbD 0 ^^ bit then (crc >>> 1) ^^^ poly else crc >>> 1

/-- The message bits of a byte string, least significant bit of each byte first. -/
def messageBits (msg : List (BitVec 8)) : List Bool :=
  msg.flatMap fun b => (List.range 8).map b.getLsbD

/-- Bit-serial CRC of a message. -/
def crcSerial {n : Nat} (poly init final : BitVec n) (msg : List (BitVec 8)) : BitVec n :=
  (messageBits msg).foldl (crcBit poly) init ^^^ final

end Armips.Spec
