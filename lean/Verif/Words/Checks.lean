import Verif.Proofs.Packed
import Verif.Words.ChineseSimplified
import Verif.Words.ChineseTraditional
import Verif.Words.Czech
import Verif.Words.English
import Verif.Words.French
import Verif.Words.Italian
import Verif.Words.Japanese
import Verif.Words.Korean
import Verif.Words.Spanish

/-!
# Checks on the shipped lists, evaluated by the kernel
-/

namespace Btc

set_option maxRecDepth 100000

theorem check_English : checkWords EnglishWordlistPacked = true := by decide +kernel
theorem check_French : checkWords FrenchWordlistPacked = true := by decide +kernel
theorem check_Japanese : checkWords JapaneseWordlistPacked = true := by decide +kernel
theorem check_Italian : checkWords ItalianWordlistPacked = true := by decide +kernel
theorem check_Spanish : checkWords SpanishWordlistPacked = true := by decide +kernel
theorem check_Korean : checkWords KoreanWordlistPacked = true := by decide +kernel
theorem check_Czech : checkWords CzechWordlistPacked = true := by decide +kernel
theorem check_ChineseTraditional : checkWords ChineseTraditionalWordlistPacked = true := by decide +kernel
theorem check_ChineseSimplified : checkWords ChineseSimplifiedWordlistPacked = true := by decide +kernel

theorem letters_English : checkLetters EnglishWordlistPacked = true := by decide +kernel
theorem letters_French : checkLetters FrenchWordlistPacked = true := by decide +kernel
theorem letters_Italian : checkLetters ItalianWordlistPacked = true := by decide +kernel
theorem letters_Spanish : checkLetters SpanishWordlistPacked = true := by decide +kernel
theorem letters_Czech : checkLetters CzechWordlistPacked = true := by decide +kernel

theorem differ_A : allDifferMod (EnglishWordlistPacked ++ (JapaneseWordlistPacked ++ (ItalianWordlistPacked ++
    (SpanishWordlistPacked ++ (KoreanWordlistPacked ++ (CzechWordlistPacked ++
      ChineseTraditionalWordlistPacked)))))) = true := by decide +kernel

theorem differ_B : allDifferMod (FrenchWordlistPacked ++ (JapaneseWordlistPacked ++ (ItalianWordlistPacked ++
    (SpanishWordlistPacked ++ (KoreanWordlistPacked ++ (CzechWordlistPacked ++
      ChineseSimplifiedWordlistPacked)))))) = true := by decide +kernel

theorem differ_C : allDifferMod (EnglishWordlistPacked ++ ChineseSimplifiedWordlistPacked) = true := by
  decide +kernel

theorem differ_D : allDifferMod (FrenchWordlistPacked ++ ChineseTraditionalWordlistPacked) = true := by
  decide +kernel

/-- The byte is not the first byte of a composed accented Latin letter. -/
def notC3 (b : Nat) : Bool := !(Nat.beq b 0xc3)

theorem noC3_French : FrenchWordlistPacked.all (allBytesNat notC3 64) = true := by decide +kernel
theorem noC3_Spanish : SpanishWordlistPacked.all (allBytesNat notC3 64) = true := by decide +kernel

/-- Not a control character, not a space, not an ASCII capital. -/
def plainByte (b : Nat) : Bool := Nat.ble 33 b && (!(Nat.ble 65 b && Nat.ble b 90)) && !(Nat.beq b 127)

theorem plain_English : EnglishWordlistPacked.all (allBytesNat plainByte 64) = true := by decide +kernel
theorem plain_French : FrenchWordlistPacked.all (allBytesNat plainByte 64) = true := by decide +kernel
theorem plain_Japanese : JapaneseWordlistPacked.all (allBytesNat plainByte 64) = true := by decide +kernel
theorem plain_Italian : ItalianWordlistPacked.all (allBytesNat plainByte 64) = true := by decide +kernel
theorem plain_Spanish : SpanishWordlistPacked.all (allBytesNat plainByte 64) = true := by decide +kernel
theorem plain_Korean : KoreanWordlistPacked.all (allBytesNat plainByte 64) = true := by decide +kernel
theorem plain_Czech : CzechWordlistPacked.all (allBytesNat plainByte 64) = true := by decide +kernel
theorem plain_ChineseTraditional : ChineseTraditionalWordlistPacked.all (allBytesNat plainByte 64) = true := by
  decide +kernel
theorem plain_ChineseSimplified : ChineseSimplifiedWordlistPacked.all (allBytesNat plainByte 64) = true := by
  decide +kernel

theorem noWide_Japanese : JapaneseWordlistPacked.all (noWideNat 64) = true := by decide +kernel

end Btc
