import Verif.Model.Client
/-
Specifications for copy, fetch and execute_ps.
-/
namespace Verif

/-- Bytes in lower case hexadecimal. -/
def lowerHex (digest : Bytes) : PyStr :=
  digest.flatMap fun b => ["0123456789abcdef".toList.getD (b.toNat / 16) ' ', "0123456789abcdef".toList.getD (b.toNat % 16) ' ']

/-- ASCII text in bytes. -/
def asciiBytes (s : PyStr) : Bytes := s.map fun c => UInt8.ofNat c.toNat

/-- The text that a byte string is in, with case ignored. -/
def SameText (text : PyStr) (b : Bytes) : Prop := (b.map fun x => (Char.ofNat x.toNat).toLower) = text

/-- What the items carry: all but the last are the data, the last one is the hash. -/
def Received (items : List PyStr) (data hash : Bytes) : Prop :=
  ∃ parts : List Bytes, items.map netFromBase64 = (parts ++ [hash]).map some ∧ parts.flatten = data

/-- The commands of a statement: their names and arguments. -/
def commandLine (c : Command) : PyStr × List (Option PyStr × ArgVal) := (c.cmd, c.args)

/-- A statement that sets a variable of the environment: `New-Item -Path env: -Name k -Value v -Force $true | Out-Null`. -/
def setsEnv (k v : PyStr) : List (PyStr × List (Option PyStr × ArgVal)) :=
  [("New-Item".toList, [(some "Path".toList, .str "env:".toList), (some "Name".toList, .str k), (some "Value".toList, .str v),
    (some "Force".toList, .bool true)]), ("Out-Null".toList, [])]

/-- The statement that runs a script: `Invoke-Expression -Command script | Out-String -Stream`. -/
def runsScript (script : PyStr) : List (PyStr × List (Option PyStr × ArgVal)) :=
  [("Invoke-Expression".toList, [(some "Command".toList, .str script)]), ("Out-String".toList, [(some "Stream".toList, .none)])]

/-- A command as the pipeline sees it. -/
def asCmd (c : Command) : Cmd Command := { body := c, ends := c.endOfStatement }

end Verif
