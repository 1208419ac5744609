import Verif.Spec.Log
import Verif.Spec.NumText

/-!
# Reading a log

How somebody reads a line of a log: its level, its words and the numbers in it. Nothing here refers to the functions of the model.
-/

namespace Sas.Spec

open Sas

/-- The numbers in a text, from left to right: maximal sequences of digits. -/
def numbersIn (t : List Byte) : List Nat :=
  match h : t.dropWhile fun b => !isDigit b with
  | [] => []
  | b :: rest => digitsValue (b :: rest.takeWhile isDigit) :: numbersIn (rest.dropWhile isDigit)
termination_by t.length
decreasing_by
  have h1 : (b :: rest).length ≤ t.length := by rw [← h]; exact (List.dropWhile_suffix _).length_le
  have h2 : (rest.dropWhile isDigit).length ≤ rest.length := (List.dropWhile_suffix _).length_le
  simp only [List.length_cons] at h1
  omega

/-- The names of the exceptions of the library (functions of `EXCEPTION`, src/exceptions.hpp). -/
def exceptionName : Exn → List Byte
  | .headerTooShort => "header_too_short".toUTF8.toList
  | .invalidMagicNumber => "invalid_magic_number".toUTF8.toList
  | .cannotReadPage => "cannot_read_page".toUTF8.toList
  | .cannotDecompress => "cannot_decompress".toUTF8.toList
  | .notAValidFile => "not_a_valid_file".toUTF8.toList
  | _ => []

end Sas.Spec
