import Verif.Model.World
/-!
# Specification: the texts whose records are decoded
-/
namespace Spec
open Py Arinc

/-- the text of a file, if it can be read -/
def fileText : FileObj → List Str
  | .text s => [s]
  | .unopenable => []
  | .undecodable => []

/-- the texts a call gives to the library to be decoded, now or later (`search` only looks for records) -/
def decodedTexts : Op → List Str
  | .read _ line => [line]
  | .parse line _ => [line]
  | .readFile f _ => fileText f
  | .readFolder (some fs) => fs.flatMap fileText
  | .readFolder none => []
  | .new _ => []
  | .decode _ _ => []
  | .json _ _ _ => []
  | .search _ _ => []

end Spec
