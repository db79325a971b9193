import Verif.Source.Files

/-!
# The syntax trees of the files

`…Chars` is the text as a list of characters, `…Decls` what the parser makes of it.
-/

namespace Btc.Source

/-- The characters of struct.go. -/
def structChars : List Char := chars_of% structGo

set_option maxRecDepth 20000 in
theorem structGo_toList : structGo.toList = structChars := by
  have h : structGo = String.ofList structChars := rfl
  rw [h, String.toList_ofList]

/-- The declarations in struct.go. -/
def structDecls : List Decl := value_of% (parse structChars).getD []

/-- The parser applied to the text. -/
theorem structGo_parse : parse structGo.toList = some structDecls := by
  rw [structGo_toList]
  decide +kernel

/-- The characters of btc.go. -/
def btcChars : List Char := chars_of% btcGo

set_option maxRecDepth 20000 in
theorem btcGo_toList : btcGo.toList = btcChars := by
  have h : btcGo = String.ofList btcChars := rfl
  rw [h, String.toList_ofList]

/-- The declarations in btc.go. -/
def btcDecls : List Decl := value_of% (parse btcChars).getD []

/-- The parser applied to the text. -/
theorem btcGo_parse : parse btcGo.toList = some btcDecls := by
  rw [btcGo_toList]
  decide +kernel

/-- The characters of util.go. -/
def utilChars : List Char := chars_of% utilGo

set_option maxRecDepth 20000 in
theorem utilGo_toList : utilGo.toList = utilChars := by
  have h : utilGo = String.ofList utilChars := rfl
  rw [h, String.toList_ofList]

/-- The declarations in util.go. -/
def utilDecls : List Decl := value_of% (parse utilChars).getD []

/-- The parser applied to the text. -/
theorem utilGo_parse : parse utilGo.toList = some utilDecls := by
  rw [utilGo_toList]
  decide +kernel

/-- The characters of private_key.go. -/
def privateKeyChars : List Char := chars_of% privateKeyGo

set_option maxRecDepth 20000 in
theorem privateKeyGo_toList : privateKeyGo.toList = privateKeyChars := by
  have h : privateKeyGo = String.ofList privateKeyChars := rfl
  rw [h, String.toList_ofList]

/-- The declarations in private_key.go. -/
def privateKeyDecls : List Decl := value_of% (parse privateKeyChars).getD []

/-- The parser applied to the text. -/
theorem privateKeyGo_parse : parse privateKeyGo.toList = some privateKeyDecls := by
  rw [privateKeyGo_toList]
  decide +kernel

/-- The characters of public_key.go. -/
def publicKeyChars : List Char := chars_of% publicKeyGo

set_option maxRecDepth 20000 in
theorem publicKeyGo_toList : publicKeyGo.toList = publicKeyChars := by
  have h : publicKeyGo = String.ofList publicKeyChars := rfl
  rw [h, String.toList_ofList]

/-- The declarations in public_key.go. -/
def publicKeyDecls : List Decl := value_of% (parse publicKeyChars).getD []

/-- The parser applied to the text. -/
theorem publicKeyGo_parse : parse publicKeyGo.toList = some publicKeyDecls := by
  rw [publicKeyGo_toList]
  decide +kernel

/-- The characters of mnemonic.go. -/
def mnemonicChars : List Char := chars_of% mnemonicGo

set_option maxRecDepth 20000 in
theorem mnemonicGo_toList : mnemonicGo.toList = mnemonicChars := by
  have h : mnemonicGo = String.ofList mnemonicChars := rfl
  rw [h, String.toList_ofList]

/-- The declarations in mnemonic.go. -/
def mnemonicDecls : List Decl := value_of% (parse mnemonicChars).getD []

/-- The parser applied to the text. -/
theorem mnemonicGo_parse : parse mnemonicGo.toList = some mnemonicDecls := by
  rw [mnemonicGo_toList]
  decide +kernel

end Btc.Source
