import Verif.Go.Text
import Verif.Spec.Utils

/-!
# Specification: a text sent by a handset (mobile-originated)

What the gateway puts into the content field of the packet that carries the text, as a function of the
text alone.
-/

namespace Gosms.Spec

/-- Every character is ASCII. -/
def AsciiText (cs : List Char) : Prop := ∀ c ∈ cs, c.toNat < 128

instance (cs : List Char) : Decidable (AsciiText cs) := by unfold AsciiText; infer_instance

/-- The UTF-16 (big endian) bytes of a text. -/
def utf16 (cs : List Char) : Bytes := (cs.map Char.toNat).flatMap utf16Enc

/-- Every character is one UTF-16 unit. -/
def Bmp (cs : List Char) : Prop := ∀ c ∈ cs, c.toNat < 0x10000

/-- The part of the text that is kept: 160 ASCII characters, or 70 characters otherwise. -/
def moKept (cs : List Char) : List Char := cs.take (if AsciiText cs then 160 else 70)

/-- The encoded text: one byte for each character, or UTF-16. -/
def moEncoded (cs : List Char) : Bytes := if AsciiText cs then utf8 (moKept cs) else utf16 (moKept cs)

/-- The length the packet declares: one byte, or two, for each character. -/
def moLength (cs : List Char) : Nat := if AsciiText cs then (moKept cs).length else 2 * (moKept cs).length

end Gosms.Spec
