namespace Armips.Spec
/-- Bit `i` of an integer in two's complement (of unlimited width). -/
def bit (v : Int) (i : Nat) : Bool := decide (v / 2 ^ i % 2 = 1)
end Armips.Spec
