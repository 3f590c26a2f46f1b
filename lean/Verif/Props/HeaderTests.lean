/-
The unit tests of src/headers.rs, replayed on the model. They are no proofs of any property; they check
that the model of the header parser computes what the code's own tests expect.
Generated from the test module; error kinds are dropped.
-/
import Verif.Model.HeaderParser

namespace Model

/-- The request-side parser of the tests. -/
def reqParser : HeaderParser := { side := .request }

/-- The response-side parser of the tests. -/
def resParser : HeaderParser := { side := .response }

/-! src/headers.rs `test_headers` -/
example : reqParser.headers [107, 49, 58, 118, 49, 13, 10, 107, 50, 58, 118, 50, 32, 98, 101, 102, 111, 114, 101, 0, 118, 50, 32, 97, 102, 116, 101, 114, 13, 10, 13, 10] = .ok [] ([⟨FlaggedText.new [107, 49] 0, FlaggedText.new [118, 49] 0⟩, ⟨FlaggedText.new [107, 50] 0, FlaggedText.new [118, 50, 32, 98, 101, 102, 111, 114, 101, 0, 118, 50, 32, 97, 102, 116, 101, 114] 0⟩], true) := by decide +kernel
example : resParser.headers [107, 49, 58, 118, 49, 13, 10, 107, 50, 58, 118, 50, 32, 98, 101, 102, 111, 114, 101, 0, 118, 50, 32, 97, 102, 116, 101, 114, 13, 10, 13, 10] = .ok [] ([⟨FlaggedText.new [107, 49] 0, FlaggedText.new [118, 49] 0⟩, ⟨FlaggedText.new [107, 50] 0, FlaggedText.new [118, 50, 32, 98, 101, 102, 111, 114, 101, 0, 118, 50, 32, 97, 102, 116, 101, 114] 0⟩], true) := by decide +kernel
example : reqParser.headers [107, 49, 58, 118, 49, 13, 10, 58, 118, 50, 13, 10, 32, 118, 50, 43, 13, 10, 107, 51, 58, 32, 118, 51, 13, 10, 107, 52, 32, 118, 52, 13, 10, 107, 13, 53, 58, 118, 13, 53, 10, 13, 109, 111, 114, 101, 13, 10, 13, 10] = .ok [] ([⟨FlaggedText.new [107, 49] 0, FlaggedText.new [118, 49] 0⟩, ⟨FlaggedText.new [] 4, FlaggedText.new [118, 50, 32, 118, 50, 43] 1⟩, ⟨FlaggedText.new [107, 51] 0, FlaggedText.new [118, 51] 0⟩, ⟨FlaggedText.new [] 516, FlaggedText.new [107, 52, 32, 118, 52] 516⟩, ⟨FlaggedText.new [107, 13, 53] 16, FlaggedText.new [118, 13, 53] 0⟩, ⟨FlaggedText.new [] 516, FlaggedText.new [109, 111, 114, 101] 516⟩], true) := by decide +kernel
example : resParser.headers [107, 49, 58, 118, 49, 13, 10, 58, 118, 50, 13, 10, 32, 118, 50, 43, 13, 10, 107, 51, 58, 32, 118, 51, 13, 10, 107, 52, 32, 118, 52, 13, 10, 107, 13, 53, 58, 118, 13, 53, 10, 13, 109, 111, 114, 101, 13, 10, 13, 10] = .ok [] ([⟨FlaggedText.new [107, 49] 0, FlaggedText.new [118, 49] 0⟩, ⟨FlaggedText.new [] 4, FlaggedText.new [118, 50, 32, 118, 50, 43] 1⟩, ⟨FlaggedText.new [107, 51] 0, FlaggedText.new [118, 51] 0⟩, ⟨FlaggedText.new [] 516, FlaggedText.new [107, 52, 32, 118, 52] 516⟩, ⟨FlaggedText.new [107, 13, 53] 16, FlaggedText.new [118] 0⟩, ⟨FlaggedText.new [] 516, FlaggedText.new [53] 516⟩, ⟨FlaggedText.new [] 516, FlaggedText.new [109, 111, 114, 101] 516⟩], true) := by decide +kernel
example : reqParser.headers [107, 49, 58, 118, 49, 13, 10, 107, 50, 58, 118, 50, 13] = .ok [107, 50, 58, 118, 50, 13] ([⟨FlaggedText.new [107, 49] 0, FlaggedText.new [118, 49] 0⟩], false) := by decide +kernel
example : resParser.headers [107, 49, 58, 118, 49, 13, 10, 107, 50, 58, 118, 50, 13] = .ok [107, 50, 58, 118, 50, 13] ([⟨FlaggedText.new [107, 49] 0, FlaggedText.new [118, 49] 0⟩], false) := by decide +kernel
example : reqParser.headers [107, 49, 58, 118, 49, 10, 107, 50, 58, 118, 50, 0, 118, 50, 13, 10, 107, 51, 58, 118, 51, 13] = .ok [107, 51, 58, 118, 51, 13] ([⟨FlaggedText.new [107, 49] 0, FlaggedText.new [118, 49] 0⟩, ⟨FlaggedText.new [107, 50] 0, FlaggedText.new [118, 50, 0, 118, 50] 0⟩], false) := by decide +kernel
example : resParser.headers [107, 49, 58, 118, 49, 10, 107, 50, 58, 118, 50, 0, 118, 50, 13, 10, 107, 51, 58, 118, 51, 13] = .ok [107, 51, 58, 118, 51, 13] ([⟨FlaggedText.new [107, 49] 0, FlaggedText.new [118, 49] 0⟩, ⟨FlaggedText.new [107, 50] 0, FlaggedText.new [118, 50, 0, 118, 50] 0⟩], false) := by decide +kernel

/-! src/headers.rs `test_headers_eoh` -/
example : reqParser.headers [78, 97, 109, 101, 49, 58, 32, 86, 97, 108, 117, 101, 49, 10, 78, 97, 109, 101, 50, 58, 86, 97, 108, 117, 101, 50, 10, 78, 97, 109, 101, 51, 58, 32, 86, 97, 108, 10, 32, 117, 101, 51, 10, 78, 97, 109, 101, 52, 58, 32, 86, 97, 108, 117, 101, 52, 10, 32, 86, 97, 108, 117, 101, 52, 46, 49, 10, 32, 86, 97, 108, 117, 101, 52, 46, 50, 10, 10] = .ok [] ([⟨FlaggedText.new [78, 97, 109, 101, 49] 0, FlaggedText.new [86, 97, 108, 117, 101, 49] 0⟩, ⟨FlaggedText.new [78, 97, 109, 101, 50] 0, FlaggedText.new [86, 97, 108, 117, 101, 50] 0⟩, ⟨FlaggedText.new [78, 97, 109, 101, 51] 0, FlaggedText.new [86, 97, 108, 32, 117, 101, 51] 1⟩, ⟨FlaggedText.new [78, 97, 109, 101, 52] 0, FlaggedText.new [86, 97, 108, 117, 101, 52, 32, 86, 97, 108, 117, 101, 52, 46, 49, 32, 86, 97, 108, 117, 101, 52, 46, 50] 1⟩], true) := by decide +kernel
example : resParser.headers [78, 97, 109, 101, 49, 58, 32, 86, 97, 108, 117, 101, 49, 10, 78, 97, 109, 101, 50, 58, 86, 97, 108, 117, 101, 50, 10, 78, 97, 109, 101, 51, 58, 32, 86, 97, 108, 10, 32, 117, 101, 51, 10, 78, 97, 109, 101, 52, 58, 32, 86, 97, 108, 117, 101, 52, 10, 32, 86, 97, 108, 117, 101, 52, 46, 49, 10, 32, 86, 97, 108, 117, 101, 52, 46, 50, 10, 10] = .ok [] ([⟨FlaggedText.new [78, 97, 109, 101, 49] 0, FlaggedText.new [86, 97, 108, 117, 101, 49] 0⟩, ⟨FlaggedText.new [78, 97, 109, 101, 50] 0, FlaggedText.new [86, 97, 108, 117, 101, 50] 0⟩, ⟨FlaggedText.new [78, 97, 109, 101, 51] 0, FlaggedText.new [86, 97, 108, 32, 117, 101, 51] 1⟩, ⟨FlaggedText.new [78, 97, 109, 101, 52] 0, FlaggedText.new [86, 97, 108, 117, 101, 52, 32, 86, 97, 108, 117, 101, 52, 46, 49, 32, 86, 97, 108, 117, 101, 52, 46, 50] 1⟩], true) := by decide +kernel
example : reqParser.headers [78, 97, 109, 101, 49, 58, 32, 86, 97, 108, 117, 101, 49, 13, 10, 78, 97, 109, 101, 50, 58, 86, 97, 108, 117, 101, 50, 13, 10, 78, 97, 109, 101, 51, 58, 32, 86, 97, 108, 13, 10, 32, 117, 101, 51, 13, 10, 78, 97, 109, 101, 52, 58, 32, 86, 97, 108, 117, 101, 52, 13, 10, 32, 86, 97, 108, 117, 101, 52, 46, 49, 13, 10, 32, 86, 97, 108, 117, 101, 52, 46, 50, 13, 10, 13, 10] = .ok [] ([⟨FlaggedText.new [78, 97, 109, 101, 49] 0, FlaggedText.new [86, 97, 108, 117, 101, 49] 0⟩, ⟨FlaggedText.new [78, 97, 109, 101, 50] 0, FlaggedText.new [86, 97, 108, 117, 101, 50] 0⟩, ⟨FlaggedText.new [78, 97, 109, 101, 51] 0, FlaggedText.new [86, 97, 108, 32, 117, 101, 51] 1⟩, ⟨FlaggedText.new [78, 97, 109, 101, 52] 0, FlaggedText.new [86, 97, 108, 117, 101, 52, 32, 86, 97, 108, 117, 101, 52, 46, 49, 32, 86, 97, 108, 117, 101, 52, 46, 50] 1⟩], true) := by decide +kernel
example : resParser.headers [78, 97, 109, 101, 49, 58, 32, 86, 97, 108, 117, 101, 49, 13, 10, 78, 97, 109, 101, 50, 58, 86, 97, 108, 117, 101, 50, 13, 10, 78, 97, 109, 101, 51, 58, 32, 86, 97, 108, 13, 10, 32, 117, 101, 51, 13, 10, 78, 97, 109, 101, 52, 58, 32, 86, 97, 108, 117, 101, 52, 13, 10, 32, 86, 97, 108, 117, 101, 52, 46, 49, 13, 10, 32, 86, 97, 108, 117, 101, 52, 46, 50, 13, 10, 13, 10] = .ok [] ([⟨FlaggedText.new [78, 97, 109, 101, 49] 0, FlaggedText.new [86, 97, 108, 117, 101, 49] 0⟩, ⟨FlaggedText.new [78, 97, 109, 101, 50] 0, FlaggedText.new [86, 97, 108, 117, 101, 50] 0⟩, ⟨FlaggedText.new [78, 97, 109, 101, 51] 0, FlaggedText.new [86, 97, 108, 32, 117, 101, 51] 1⟩, ⟨FlaggedText.new [78, 97, 109, 101, 52] 0, FlaggedText.new [86, 97, 108, 117, 101, 52, 32, 86, 97, 108, 117, 101, 52, 46, 49, 32, 86, 97, 108, 117, 101, 52, 46, 50] 1⟩], true) := by decide +kernel
example : reqParser.headers [78, 97, 109, 101, 49, 58, 32, 86, 97, 108, 117, 101, 49, 13, 10, 78, 97, 109, 101, 50, 58, 86, 97, 108, 117, 101, 50, 10, 78, 97, 109, 101, 51, 58, 32, 86, 97, 108, 13, 10, 32, 117, 101, 51, 13, 10, 78, 97, 109, 101, 52, 58, 32, 86, 97, 108, 117, 101, 52, 13, 10, 32, 86, 97, 108, 117, 101, 52, 46, 49, 10, 32, 86, 97, 108, 117, 101, 52, 46, 50, 13, 10, 10] = .ok [] ([⟨FlaggedText.new [78, 97, 109, 101, 49] 0, FlaggedText.new [86, 97, 108, 117, 101, 49] 0⟩, ⟨FlaggedText.new [78, 97, 109, 101, 50] 0, FlaggedText.new [86, 97, 108, 117, 101, 50] 0⟩, ⟨FlaggedText.new [78, 97, 109, 101, 51] 0, FlaggedText.new [86, 97, 108, 32, 117, 101, 51] 1⟩, ⟨FlaggedText.new [78, 97, 109, 101, 52] 0, FlaggedText.new [86, 97, 108, 117, 101, 52, 32, 86, 97, 108, 117, 101, 52, 46, 49, 32, 86, 97, 108, 117, 101, 52, 46, 50] 1⟩], true) := by decide +kernel
example : resParser.headers [78, 97, 109, 101, 49, 58, 32, 86, 97, 108, 117, 101, 49, 13, 10, 78, 97, 109, 101, 50, 58, 86, 97, 108, 117, 101, 50, 10, 78, 97, 109, 101, 51, 58, 32, 86, 97, 108, 13, 10, 32, 117, 101, 51, 13, 10, 78, 97, 109, 101, 52, 58, 32, 86, 97, 108, 117, 101, 52, 13, 10, 32, 86, 97, 108, 117, 101, 52, 46, 49, 10, 32, 86, 97, 108, 117, 101, 52, 46, 50, 13, 10, 10] = .ok [] ([⟨FlaggedText.new [78, 97, 109, 101, 49] 0, FlaggedText.new [86, 97, 108, 117, 101, 49] 0⟩, ⟨FlaggedText.new [78, 97, 109, 101, 50] 0, FlaggedText.new [86, 97, 108, 117, 101, 50] 0⟩, ⟨FlaggedText.new [78, 97, 109, 101, 51] 0, FlaggedText.new [86, 97, 108, 32, 117, 101, 51] 1⟩, ⟨FlaggedText.new [78, 97, 109, 101, 52] 0, FlaggedText.new [86, 97, 108, 117, 101, 52, 32, 86, 97, 108, 117, 101, 52, 46, 49, 32, 86, 97, 108, 117, 101, 52, 46, 50] 1⟩], true) := by decide +kernel
example : reqParser.headers [78, 97, 109, 101, 49, 58, 32, 86, 97, 108, 117, 101, 49, 13, 78, 97, 109, 101, 50, 58, 86, 97, 108, 117, 101, 50, 13, 78, 97, 109, 101, 51, 58, 32, 86, 97, 108, 13, 10, 32, 117, 101, 51, 13, 78, 97, 109, 101, 52, 58, 32, 86, 97, 108, 117, 101, 52, 13, 10, 32, 86, 97, 108, 117, 101, 52, 46, 49, 13, 10, 32, 86, 97, 108, 117, 101, 52, 46, 50, 13, 13, 10] = .incomplete := by decide +kernel
example : resParser.headers [78, 97, 109, 101, 49, 58, 32, 86, 97, 108, 117, 101, 49, 13, 78, 97, 109, 101, 50, 58, 86, 97, 108, 117, 101, 50, 13, 78, 97, 109, 101, 51, 58, 32, 86, 97, 108, 13, 10, 32, 117, 101, 51, 13, 78, 97, 109, 101, 52, 58, 32, 86, 97, 108, 117, 101, 52, 13, 10, 32, 86, 97, 108, 117, 101, 52, 46, 49, 13, 10, 32, 86, 97, 108, 117, 101, 52, 46, 50, 13, 13, 10] = .ok [] ([⟨FlaggedText.new [78, 97, 109, 101, 49] 0, FlaggedText.new [86, 97, 108, 117, 101, 49] 0⟩, ⟨FlaggedText.new [78, 97, 109, 101, 50] 0, FlaggedText.new [86, 97, 108, 117, 101, 50] 0⟩, ⟨FlaggedText.new [78, 97, 109, 101, 51] 0, FlaggedText.new [86, 97, 108, 32, 117, 101, 51] 1⟩, ⟨FlaggedText.new [78, 97, 109, 101, 52] 0, FlaggedText.new [86, 97, 108, 117, 101, 52, 32, 86, 97, 108, 117, 101, 52, 46, 49, 32, 86, 97, 108, 117, 101, 52, 46, 50] 1⟩], true) := by decide +kernel
example : reqParser.headers [78, 97, 109, 101, 49, 58, 32, 86, 97, 108, 117, 101, 49, 13, 78, 97, 109, 101, 50, 58, 86, 97, 108, 117, 101, 50, 13, 78, 97, 109, 101, 51, 58, 32, 86, 97, 108, 13, 10, 32, 117, 101, 51, 13, 10, 78, 97, 109, 101, 52, 58, 32, 86, 97, 108, 117, 101, 52, 13, 10, 32, 86, 97, 108, 117, 101, 52, 46, 49, 10, 32, 86, 97, 108, 117, 101, 52, 46, 50, 13, 10, 10] = .ok [] ([⟨FlaggedText.new [78, 97, 109, 101, 49] 0, FlaggedText.new [86, 97, 108, 117, 101, 49, 13, 78, 97, 109, 101, 50, 58, 86, 97, 108, 117, 101, 50, 13, 78, 97, 109, 101, 51, 58, 32, 86, 97, 108, 32, 117, 101, 51] 1⟩, ⟨FlaggedText.new [78, 97, 109, 101, 52] 0, FlaggedText.new [86, 97, 108, 117, 101, 52, 32, 86, 97, 108, 117, 101, 52, 46, 49, 32, 86, 97, 108, 117, 101, 52, 46, 50] 1⟩], true) := by decide +kernel
example : resParser.headers [78, 97, 109, 101, 49, 58, 32, 86, 97, 108, 117, 101, 49, 13, 78, 97, 109, 101, 50, 58, 86, 97, 108, 117, 101, 50, 13, 78, 97, 109, 101, 51, 58, 32, 86, 97, 108, 13, 10, 32, 117, 101, 51, 13, 10, 78, 97, 109, 101, 52, 58, 32, 86, 97, 108, 117, 101, 52, 13, 10, 32, 86, 97, 108, 117, 101, 52, 46, 49, 10, 32, 86, 97, 108, 117, 101, 52, 46, 50, 13, 10, 10] = .ok [] ([⟨FlaggedText.new [78, 97, 109, 101, 49] 0, FlaggedText.new [86, 97, 108, 117, 101, 49] 0⟩, ⟨FlaggedText.new [78, 97, 109, 101, 50] 0, FlaggedText.new [86, 97, 108, 117, 101, 50] 0⟩, ⟨FlaggedText.new [78, 97, 109, 101, 51] 0, FlaggedText.new [86, 97, 108, 32, 117, 101, 51] 1⟩, ⟨FlaggedText.new [78, 97, 109, 101, 52] 0, FlaggedText.new [86, 97, 108, 117, 101, 52, 32, 86, 97, 108, 117, 101, 52, 46, 49, 32, 86, 97, 108, 117, 101, 52, 46, 50] 1⟩], true) := by decide +kernel
example : reqParser.headers [78, 97, 109, 101, 49, 58, 32, 86, 97, 108, 117, 101, 49, 13, 10, 78, 97, 109, 101, 50, 58, 86, 97, 108, 117, 101, 50, 10, 78, 97, 109, 101, 51, 58, 32, 86, 97, 108, 10, 13, 32, 117, 101, 51, 10, 13, 78, 97, 109, 101, 52, 58, 32, 86, 97, 108, 117, 101, 52, 13, 10, 32, 86, 97, 108, 117, 101, 52, 46, 49, 10, 32, 86, 97, 108, 117, 101, 52, 46, 50, 13, 10, 10] = .ok [] ([⟨FlaggedText.new [78, 97, 109, 101, 49] 0, FlaggedText.new [86, 97, 108, 117, 101, 49] 0⟩, ⟨FlaggedText.new [78, 97, 109, 101, 50] 0, FlaggedText.new [86, 97, 108, 117, 101, 50] 0⟩, ⟨FlaggedText.new [78, 97, 109, 101, 51] 0, FlaggedText.new [86, 97, 108] 0⟩, ⟨FlaggedText.new [] 516, FlaggedText.new [117, 101, 51] 516⟩, ⟨FlaggedText.new [78, 97, 109, 101, 52] 16, FlaggedText.new [86, 97, 108, 117, 101, 52, 32, 86, 97, 108, 117, 101, 52, 46, 49, 32, 86, 97, 108, 117, 101, 52, 46, 50] 1⟩], true) := by decide +kernel
example : resParser.headers [78, 97, 109, 101, 49, 58, 32, 86, 97, 108, 117, 101, 49, 13, 10, 78, 97, 109, 101, 50, 58, 86, 97, 108, 117, 101, 50, 10, 78, 97, 109, 101, 51, 58, 32, 86, 97, 108, 10, 13, 32, 117, 101, 51, 10, 13, 78, 97, 109, 101, 52, 58, 32, 86, 97, 108, 117, 101, 52, 13, 10, 32, 86, 97, 108, 117, 101, 52, 46, 49, 10, 32, 86, 97, 108, 117, 101, 52, 46, 50, 13, 10, 10] = .ok [] ([⟨FlaggedText.new [78, 97, 109, 101, 49] 0, FlaggedText.new [86, 97, 108, 117, 101, 49] 0⟩, ⟨FlaggedText.new [78, 97, 109, 101, 50] 0, FlaggedText.new [86, 97, 108, 117, 101, 50] 0⟩, ⟨FlaggedText.new [78, 97, 109, 101, 51] 0, FlaggedText.new [86, 97, 108, 32, 117, 101, 51] 1⟩, ⟨FlaggedText.new [78, 97, 109, 101, 52] 0, FlaggedText.new [86, 97, 108, 117, 101, 52, 32, 86, 97, 108, 117, 101, 52, 46, 49, 32, 86, 97, 108, 117, 101, 52, 46, 50] 1⟩], true) := by decide +kernel
example : reqParser.headers [78, 97, 109, 101, 49, 58, 32, 86, 97, 108, 117, 101, 49, 10, 13, 78, 97, 109, 101, 50, 58, 86, 97, 108, 117, 101, 50, 10, 13, 78, 97, 109, 101, 51, 58, 32, 86, 97, 108, 10, 13, 32, 117, 101, 51, 10, 13, 78, 97, 109, 101, 52, 58, 32, 86, 97, 108, 117, 101, 52, 10, 13, 32, 86, 97, 108, 117, 101, 52, 46, 49, 10, 13, 32, 86, 97, 108, 117, 101, 52, 46, 50, 10, 13, 10, 13] = .ok [13] ([⟨FlaggedText.new [78, 97, 109, 101, 49] 0, FlaggedText.new [86, 97, 108, 117, 101, 49] 0⟩, ⟨FlaggedText.new [78, 97, 109, 101, 50] 16, FlaggedText.new [86, 97, 108, 117, 101, 50] 0⟩, ⟨FlaggedText.new [78, 97, 109, 101, 51] 16, FlaggedText.new [86, 97, 108] 0⟩, ⟨FlaggedText.new [] 516, FlaggedText.new [117, 101, 51] 516⟩, ⟨FlaggedText.new [78, 97, 109, 101, 52] 16, FlaggedText.new [86, 97, 108, 117, 101, 52] 0⟩, ⟨FlaggedText.new [] 516, FlaggedText.new [86, 97, 108, 117, 101, 52, 46, 49] 516⟩, ⟨FlaggedText.new [] 516, FlaggedText.new [86, 97, 108, 117, 101, 52, 46, 50] 516⟩], true) := by decide +kernel
example : resParser.headers [78, 97, 109, 101, 49, 58, 32, 86, 97, 108, 117, 101, 49, 10, 13, 78, 97, 109, 101, 50, 58, 86, 97, 108, 117, 101, 50, 10, 13, 78, 97, 109, 101, 51, 58, 32, 86, 97, 108, 10, 13, 32, 117, 101, 51, 10, 13, 78, 97, 109, 101, 52, 58, 32, 86, 97, 108, 117, 101, 52, 10, 13, 32, 86, 97, 108, 117, 101, 52, 46, 49, 10, 13, 32, 86, 97, 108, 117, 101, 52, 46, 50, 10, 13, 10, 13] = .ok [] ([⟨FlaggedText.new [78, 97, 109, 101, 49] 0, FlaggedText.new [86, 97, 108, 117, 101, 49] 0⟩, ⟨FlaggedText.new [78, 97, 109, 101, 50] 0, FlaggedText.new [86, 97, 108, 117, 101, 50] 0⟩, ⟨FlaggedText.new [78, 97, 109, 101, 51] 0, FlaggedText.new [86, 97, 108, 32, 117, 101, 51] 1⟩, ⟨FlaggedText.new [78, 97, 109, 101, 52] 0, FlaggedText.new [86, 97, 108, 117, 101, 52, 32, 86, 97, 108, 117, 101, 52, 46, 49, 32, 86, 97, 108, 117, 101, 52, 46, 50] 1⟩], true) := by decide +kernel

/-! src/headers.rs `test_header_sans_colon` -/
example : reqParser.headerSansColon [75, 32, 86] = .incomplete := by decide +kernel
example : resParser.headerSansColon [75, 32, 86] = .incomplete := by decide +kernel
example : reqParser.headerSansColon [75, 58, 86, 13, 10] = .incomplete := by decide +kernel
example : resParser.headerSansColon [75, 58, 86, 13, 10] = .incomplete := by decide +kernel
example : reqParser.headerSansColon [75, 58, 86, 13, 10, 75, 50, 58, 32, 86, 50] = .ok [75, 50, 58, 32, 86, 50] ⟨FlaggedText.new [] 516, FlaggedText.new [75, 58, 86] 516⟩ := by decide +kernel
example : resParser.headerSansColon [75, 58, 86, 13, 10, 75, 50, 58, 32, 86, 50] = .ok [75, 50, 58, 32, 86, 50] ⟨FlaggedText.new [] 516, FlaggedText.new [75, 58, 86] 516⟩ := by decide +kernel
example : reqParser.headerSansColon [13, 10] = .err := by decide +kernel
example : resParser.headerSansColon [13, 10] = .err := by decide +kernel
example : reqParser.headerSansColon [75, 32, 86, 0, 97, 108, 117, 101, 13, 10, 107] = .ok [107] ⟨FlaggedText.new [] 516, FlaggedText.new [75, 32, 86, 0, 97, 108, 117, 101] 516⟩ := by decide +kernel
example : resParser.headerSansColon [75, 32, 86, 0, 97, 108, 117, 101, 13, 10, 107] = .ok [107] ⟨FlaggedText.new [] 516, FlaggedText.new [75, 32, 86, 0, 97, 108, 117, 101] 516⟩ := by decide +kernel
example : reqParser.headerSansColon [75, 32, 86, 13, 97, 108, 117, 101, 13, 10, 107] = .ok [107] ⟨FlaggedText.new [] 516, FlaggedText.new [75, 32, 86, 13, 97, 108, 117, 101] 516⟩ := by decide +kernel
example : resParser.headerSansColon [75, 32, 86, 13, 97, 108, 117, 101, 13, 10, 107] = .ok [97, 108, 117, 101, 13, 10, 107] ⟨FlaggedText.new [] 516, FlaggedText.new [75, 32, 86] 516⟩ := by decide +kernel
example : reqParser.headerSansColon [75, 32, 86, 13, 10, 107, 49, 58, 118, 49, 13, 10] = .ok [107, 49, 58, 118, 49, 13, 10] ⟨FlaggedText.new [] 516, FlaggedText.new [75, 32, 86] 516⟩ := by decide +kernel
example : resParser.headerSansColon [75, 32, 86, 13, 10, 107, 49, 58, 118, 49, 13, 10] = .ok [107, 49, 58, 118, 49, 13, 10] ⟨FlaggedText.new [] 516, FlaggedText.new [75, 32, 86] 516⟩ := by decide +kernel
example : reqParser.headerSansColon [75, 32, 86, 10, 107, 49, 58, 118, 49, 13, 10] = .ok [107, 49, 58, 118, 49, 13, 10] ⟨FlaggedText.new [] 516, FlaggedText.new [75, 32, 86] 516⟩ := by decide +kernel
example : resParser.headerSansColon [75, 32, 86, 10, 107, 49, 58, 118, 49, 13, 10] = .ok [107, 49, 58, 118, 49, 13, 10] ⟨FlaggedText.new [] 516, FlaggedText.new [75, 32, 86] 516⟩ := by decide +kernel

/-! src/headers.rs `test_header_with_colon` -/
example : reqParser.headerWithColon [75, 58, 32, 86] = .incomplete := by decide +kernel
example : resParser.headerWithColon [75, 58, 32, 86] = .incomplete := by decide +kernel
example : reqParser.headerWithColon [75, 58, 32, 86, 13, 10] = .incomplete := by decide +kernel
example : resParser.headerWithColon [75, 58, 32, 86, 13, 10] = .incomplete := by decide +kernel
example : reqParser.headerWithColon [75, 32, 86, 10, 75, 58, 86, 13, 10] = .err := by decide +kernel
example : resParser.headerWithColon [75, 32, 86, 10, 75, 58, 86, 13, 10] = .err := by decide +kernel
example : reqParser.headerWithColon [58, 13, 10, 13, 10] = .ok [13, 10] ⟨FlaggedText.new [] 4, FlaggedText.new [] 8⟩ := by decide +kernel
example : resParser.headerWithColon [58, 13, 10, 13, 10] = .ok [13, 10] ⟨FlaggedText.new [] 4, FlaggedText.new [] 8⟩ := by decide +kernel
example : reqParser.headerWithColon [75, 58, 13, 10, 13, 10] = .ok [13, 10] ⟨FlaggedText.new [75] 0, FlaggedText.new [] 8⟩ := by decide +kernel
example : resParser.headerWithColon [75, 58, 13, 10, 13, 10] = .ok [13, 10] ⟨FlaggedText.new [75] 0, FlaggedText.new [] 8⟩ := by decide +kernel
example : reqParser.headerWithColon [58, 86, 13, 10, 13, 10] = .ok [13, 10] ⟨FlaggedText.new [] 4, FlaggedText.new [86] 0⟩ := by decide +kernel
example : resParser.headerWithColon [58, 86, 13, 10, 13, 10] = .ok [13, 10] ⟨FlaggedText.new [] 4, FlaggedText.new [86] 0⟩ := by decide +kernel
example : reqParser.headerWithColon [75, 58, 102, 111, 108, 100, 101, 100, 13, 10, 13, 86, 13, 10, 13, 10] = .ok [13, 86, 13, 10, 13, 10] ⟨FlaggedText.new [75] 0, FlaggedText.new [102, 111, 108, 100, 101, 100] 0⟩ := by decide +kernel
example : resParser.headerWithColon [75, 58, 102, 111, 108, 100, 101, 100, 13, 10, 13, 86, 13, 10, 13, 10] = .ok [13, 86, 13, 10, 13, 10] ⟨FlaggedText.new [75] 0, FlaggedText.new [102, 111, 108, 100, 101, 100] 0⟩ := by decide +kernel
example : reqParser.headerWithColon [75, 58, 32, 86, 13, 10, 13, 10] = .ok [13, 10] ⟨FlaggedText.new [75] 0, FlaggedText.new [86] 0⟩ := by decide +kernel
example : resParser.headerWithColon [75, 58, 32, 86, 13, 10, 13, 10] = .ok [13, 10] ⟨FlaggedText.new [75] 0, FlaggedText.new [86] 0⟩ := by decide +kernel
example : reqParser.headerWithColon [75, 58, 32, 86, 32, 98, 101, 102, 111, 114, 101, 0, 32, 86, 32, 97, 102, 116, 101, 114, 13, 10, 13, 10] = .ok [13, 10] ⟨FlaggedText.new [75] 0, FlaggedText.new [86, 32, 98, 101, 102, 111, 114, 101, 0, 32, 86, 32, 97, 102, 116, 101, 114] 0⟩ := by decide +kernel
example : resParser.headerWithColon [75, 58, 32, 86, 32, 98, 101, 102, 111, 114, 101, 0, 32, 86, 32, 97, 102, 116, 101, 114, 13, 10, 13, 10] = .ok [13, 10] ⟨FlaggedText.new [75] 0, FlaggedText.new [86, 32, 98, 101, 102, 111, 114, 101, 0, 32, 86, 32, 97, 102, 116, 101, 114] 0⟩ := by decide +kernel
example : reqParser.headerWithColon [75, 58, 32, 86, 13, 10, 13, 10] = .ok [13, 10] ⟨FlaggedText.new [75] 0, FlaggedText.new [86] 0⟩ := by decide +kernel
example : resParser.headerWithColon [75, 58, 32, 86, 13, 10, 13, 10] = .ok [13, 10] ⟨FlaggedText.new [75] 0, FlaggedText.new [86] 0⟩ := by decide +kernel
example : reqParser.headerWithColon [75, 58, 32, 86, 32, 98, 101, 102, 111, 114, 101, 0, 32, 86, 32, 97, 102, 116, 101, 114, 13, 10, 13, 10] = .ok [13, 10] ⟨FlaggedText.new [75] 0, FlaggedText.new [86, 32, 98, 101, 102, 111, 114, 101, 0, 32, 86, 32, 97, 102, 116, 101, 114] 0⟩ := by decide +kernel
example : resParser.headerWithColon [75, 58, 32, 86, 32, 98, 101, 102, 111, 114, 101, 0, 32, 86, 32, 97, 102, 116, 101, 114, 13, 10, 13, 10] = .ok [13, 10] ⟨FlaggedText.new [75] 0, FlaggedText.new [86, 32, 98, 101, 102, 111, 114, 101, 0, 32, 86, 32, 97, 102, 116, 101, 114] 0⟩ := by decide +kernel
example : reqParser.headerWithColon [75, 58, 32, 86, 13, 10, 32, 97, 13, 10, 32, 108, 13, 10, 32, 117, 13, 10, 9, 101, 13, 10, 13, 10] = .ok [13, 10] ⟨FlaggedText.new [75] 0, FlaggedText.new [86, 32, 97, 32, 108, 32, 117, 9, 101] 1⟩ := by decide +kernel
example : resParser.headerWithColon [75, 58, 32, 86, 13, 10, 32, 97, 13, 10, 32, 108, 13, 10, 32, 117, 13, 10, 9, 101, 13, 10, 13, 10] = .ok [13, 10] ⟨FlaggedText.new [75] 0, FlaggedText.new [86, 32, 97, 32, 108, 32, 117, 9, 101] 1⟩ := by decide +kernel

/-! src/headers.rs `test_header` -/
example : reqParser.header [75, 58, 32, 86] = .incomplete := by decide +kernel
example : resParser.header [75, 58, 32, 86] = .incomplete := by decide +kernel
example : reqParser.header [75, 58, 32, 86, 13, 10] = .incomplete := by decide +kernel
example : resParser.header [75, 58, 32, 86, 13, 10] = .incomplete := by decide +kernel
example : reqParser.header [75, 32, 86, 13, 10] = .incomplete := by decide +kernel
example : resParser.header [75, 32, 86, 13, 10] = .incomplete := by decide +kernel
example : reqParser.header [75, 49, 32, 86, 49, 13, 10, 75, 50, 58, 86, 50, 10, 13, 10] = .ok [75, 50, 58, 86, 50, 10, 13, 10] ⟨FlaggedText.new [] 516, FlaggedText.new [75, 49, 32, 86, 49] 516⟩ := by decide +kernel
example : resParser.header [75, 49, 32, 86, 49, 13, 10, 75, 50, 58, 86, 50, 10, 13, 10] = .ok [75, 50, 58, 86, 50, 10, 13, 10] ⟨FlaggedText.new [] 516, FlaggedText.new [75, 49, 32, 86, 49] 516⟩ := by decide +kernel
example : reqParser.header [75, 49, 58, 86, 49, 10, 75, 50, 58, 86, 50, 10, 13, 10] = .ok [75, 50, 58, 86, 50, 10, 13, 10] ⟨FlaggedText.new [75, 49] 0, FlaggedText.new [86, 49] 0⟩ := by decide +kernel
example : resParser.header [75, 49, 58, 86, 49, 10, 75, 50, 58, 86, 50, 10, 13, 10] = .ok [75, 50, 58, 86, 50, 10, 13, 10] ⟨FlaggedText.new [75, 49] 0, FlaggedText.new [86, 49] 0⟩ := by decide +kernel
example : reqParser.header [58, 13, 10, 13, 10] = .ok [13, 10] ⟨FlaggedText.new [] 4, FlaggedText.new [] 8⟩ := by decide +kernel
example : resParser.header [58, 13, 10, 13, 10] = .ok [13, 10] ⟨FlaggedText.new [] 4, FlaggedText.new [] 8⟩ := by decide +kernel
example : reqParser.header [75, 58, 13, 10, 13, 10] = .ok [13, 10] ⟨FlaggedText.new [75] 0, FlaggedText.new [] 8⟩ := by decide +kernel
example : resParser.header [75, 58, 13, 10, 13, 10] = .ok [13, 10] ⟨FlaggedText.new [75] 0, FlaggedText.new [] 8⟩ := by decide +kernel
example : reqParser.header [58, 86, 13, 10, 13, 10] = .ok [13, 10] ⟨FlaggedText.new [] 4, FlaggedText.new [86] 0⟩ := by decide +kernel
example : resParser.header [58, 86, 13, 10, 13, 10] = .ok [13, 10] ⟨FlaggedText.new [] 4, FlaggedText.new [86] 0⟩ := by decide +kernel
example : reqParser.header [75, 58, 102, 111, 108, 100, 101, 100, 13, 10, 13, 86, 13, 10, 13, 10] = .ok [13, 86, 13, 10, 13, 10] ⟨FlaggedText.new [75] 0, FlaggedText.new [102, 111, 108, 100, 101, 100] 0⟩ := by decide +kernel
example : resParser.header [75, 58, 102, 111, 108, 100, 101, 100, 13, 10, 13, 86, 13, 10, 13, 10] = .ok [13, 86, 13, 10, 13, 10] ⟨FlaggedText.new [75] 0, FlaggedText.new [102, 111, 108, 100, 101, 100] 0⟩ := by decide +kernel
example : reqParser.header [75, 58, 32, 86, 13, 10, 13, 10] = .ok [13, 10] ⟨FlaggedText.new [75] 0, FlaggedText.new [86] 0⟩ := by decide +kernel
example : resParser.header [75, 58, 32, 86, 13, 10, 13, 10] = .ok [13, 10] ⟨FlaggedText.new [75] 0, FlaggedText.new [86] 0⟩ := by decide +kernel
example : reqParser.header [75, 58, 32, 86, 10, 32, 97, 13, 10, 32, 108, 10, 32, 117, 13, 10, 9, 101, 13, 10, 13, 10] = .ok [13, 10] ⟨FlaggedText.new [75] 0, FlaggedText.new [86, 32, 97, 32, 108, 32, 117, 9, 101] 1⟩ := by decide +kernel
example : resParser.header [75, 58, 32, 86, 10, 32, 97, 13, 10, 32, 108, 10, 32, 117, 13, 10, 9, 101, 13, 10, 13, 10] = .ok [13, 10] ⟨FlaggedText.new [75] 0, FlaggedText.new [86, 32, 97, 32, 108, 32, 117, 9, 101] 1⟩ := by decide +kernel
example : reqParser.header [72, 111, 115, 116, 58, 119, 119, 119, 46, 103, 111, 111, 103, 108, 101, 46, 99, 111, 109, 13, 78, 97, 109, 101, 58, 32, 86, 97, 108, 117, 101, 13, 10, 13, 10] = .ok [13, 10] ⟨FlaggedText.new [72, 111, 115, 116] 0, FlaggedText.new [119, 119, 119, 46, 103, 111, 111, 103, 108, 101, 46, 99, 111, 109, 13, 78, 97, 109, 101, 58, 32, 86, 97, 108, 117, 101] 0⟩ := by decide +kernel
example : resParser.header [72, 111, 115, 116, 58, 119, 119, 119, 46, 103, 111, 111, 103, 108, 101, 46, 99, 111, 109, 13, 78, 97, 109, 101, 58, 32, 86, 97, 108, 117, 101, 13, 10, 13, 10] = .ok [78, 97, 109, 101, 58, 32, 86, 97, 108, 117, 101, 13, 10, 13, 10] ⟨FlaggedText.new [72, 111, 115, 116] 0, FlaggedText.new [119, 119, 119, 46, 103, 111, 111, 103, 108, 101, 46, 99, 111, 109] 0⟩ := by decide +kernel
example : reqParser.header [75, 58, 32, 86, 32, 98, 101, 102, 111, 114, 101, 0, 32, 86, 32, 97, 102, 116, 101, 114, 13, 10, 13, 10] = .ok [13, 10] ⟨FlaggedText.new [75] 0, FlaggedText.new [86, 32, 98, 101, 102, 111, 114, 101, 0, 32, 86, 32, 97, 102, 116, 101, 114] 0⟩ := by decide +kernel
example : resParser.header [75, 58, 32, 86, 32, 98, 101, 102, 111, 114, 101, 0, 32, 86, 32, 97, 102, 116, 101, 114, 13, 10, 13, 10] = .ok [13, 10] ⟨FlaggedText.new [75] 0, FlaggedText.new [86, 32, 98, 101, 102, 111, 114, 101, 0, 32, 86, 32, 97, 102, 116, 101, 114] 0⟩ := by decide +kernel
example : reqParser.header [75, 58, 32, 86, 13, 32, 97, 13, 10, 32, 108, 10, 32, 117, 13, 10, 9, 101, 13, 10, 13, 10] = .ok [13, 10] ⟨FlaggedText.new [75] 0, FlaggedText.new [86, 13, 32, 97, 32, 108, 32, 117, 9, 101] 1⟩ := by decide +kernel
example : resParser.header [75, 58, 32, 86, 13, 32, 97, 13, 10, 32, 108, 10, 32, 117, 13, 10, 9, 101, 13, 10, 13, 10] = .ok [13, 10] ⟨FlaggedText.new [75] 0, FlaggedText.new [86, 32, 97, 32, 108, 32, 117, 9, 101] 1⟩ := by decide +kernel
example : reqParser.header [75, 58, 100, 101, 102, 111, 114, 109, 101, 100, 32, 102, 111, 108, 100, 101, 100, 10, 13, 32, 86, 10, 13, 13, 10, 10] = .ok [13, 32, 86, 10, 13, 13, 10, 10] ⟨FlaggedText.new [75] 0, FlaggedText.new [100, 101, 102, 111, 114, 109, 101, 100, 32, 102, 111, 108, 100, 101, 100] 0⟩ := by decide +kernel
example : resParser.header [75, 58, 100, 101, 102, 111, 114, 109, 101, 100, 32, 102, 111, 108, 100, 101, 100, 10, 13, 32, 86, 10, 13, 13, 10, 10] = .ok [10] ⟨FlaggedText.new [75] 0, FlaggedText.new [100, 101, 102, 111, 114, 109, 101, 100, 32, 102, 111, 108, 100, 101, 100, 32, 86] 1025⟩ := by decide +kernel
example : reqParser.header [75, 58, 100, 101, 102, 111, 114, 109, 101, 100, 32, 102, 111, 108, 100, 101, 100, 10, 13, 32, 86, 13, 10, 13, 10] = .ok [13, 32, 86, 13, 10, 13, 10] ⟨FlaggedText.new [75] 0, FlaggedText.new [100, 101, 102, 111, 114, 109, 101, 100, 32, 102, 111, 108, 100, 101, 100] 0⟩ := by decide +kernel
example : resParser.header [75, 58, 100, 101, 102, 111, 114, 109, 101, 100, 32, 102, 111, 108, 100, 101, 100, 10, 13, 32, 86, 13, 10, 13, 10] = .ok [13, 10] ⟨FlaggedText.new [75] 0, FlaggedText.new [100, 101, 102, 111, 114, 109, 101, 100, 32, 102, 111, 108, 100, 101, 100, 32, 86] 1⟩ := by decide +kernel
example : reqParser.header [75, 58, 100, 101, 102, 111, 114, 109, 101, 100, 32, 102, 111, 108, 100, 101, 100, 10, 13, 13, 32, 86, 13, 10, 13, 10] = .ok [13, 13, 32, 86, 13, 10, 13, 10] ⟨FlaggedText.new [75] 0, FlaggedText.new [100, 101, 102, 111, 114, 109, 101, 100, 32, 102, 111, 108, 100, 101, 100] 0⟩ := by decide +kernel
example : resParser.header [75, 58, 100, 101, 102, 111, 114, 109, 101, 100, 32, 102, 111, 108, 100, 101, 100, 10, 13, 13, 32, 86, 13, 10, 13, 10] = .ok [13, 32, 86, 13, 10, 13, 10] ⟨FlaggedText.new [75] 0, FlaggedText.new [100, 101, 102, 111, 114, 109, 101, 100, 32, 102, 111, 108, 100, 101, 100] 0⟩ := by decide +kernel
example : reqParser.header [75, 13, 32, 13, 32, 58, 13, 32, 86, 13, 10, 13, 10] = .ok [13, 10] ⟨FlaggedText.new [75, 13, 32, 13, 32] 80, FlaggedText.new [13, 32, 86] 0⟩ := by decide +kernel
example : resParser.header [75, 13, 32, 13, 32, 58, 13, 32, 86, 13, 10, 13, 10] = .ok [13, 10] ⟨FlaggedText.new [75] 80, FlaggedText.new [86] 1⟩ := by decide +kernel
example : reqParser.header [75, 12, 58, 86, 97, 108, 117, 101, 13, 10, 32, 86, 13, 10, 13, 10] = .ok [13, 10] ⟨FlaggedText.new [75, 12] 16, FlaggedText.new [86, 97, 108, 117, 101, 32, 86] 1⟩ := by decide +kernel
example : resParser.header [75, 12, 58, 86, 97, 108, 117, 101, 13, 10, 32, 86, 13, 10, 13, 10] = .ok [13, 10] ⟨FlaggedText.new [75, 12] 16, FlaggedText.new [86, 97, 108, 117, 101, 32, 86] 1⟩ := by decide +kernel
example : reqParser.header [75, 13, 32, 58, 86, 97, 108, 117, 101, 13, 10, 32, 86, 13, 10, 13, 10] = .ok [13, 10] ⟨FlaggedText.new [75, 13, 32] 80, FlaggedText.new [86, 97, 108, 117, 101, 32, 86] 1⟩ := by decide +kernel
example : resParser.header [75, 13, 32, 58, 86, 97, 108, 117, 101, 13, 10, 32, 86, 13, 10, 13, 10] = .ok [13, 10] ⟨FlaggedText.new [75, 13, 32] 80, FlaggedText.new [86, 97, 108, 117, 101, 32, 86] 1⟩ := by decide +kernel

/-! src/headers.rs `test_separators` -/
example : HeaderParser.separator [10] = .err := by decide +kernel
example : HeaderParser.separator [58, 118, 97, 108, 117, 101] = .ok [118, 97, 108, 117, 101] 0 := by decide +kernel
example : HeaderParser.separator [58, 32, 118, 97, 108, 117, 101] = .ok [118, 97, 108, 117, 101] 0 := by decide +kernel
example : HeaderParser.separator [58, 9, 32, 118, 97, 108, 117, 101] = .ok [118, 97, 108, 117, 101] 0 := by decide +kernel

/-! src/headers.rs `test_token_chars` -/
example : Model.tokenChars [110, 97, 109, 101] = .incomplete := by decide +kernel
example : Model.tokenChars [110, 97, 109, 101, 58] = .ok [58] ([], [110, 97, 109, 101], []) := by decide +kernel
example : Model.tokenChars [110, 97, 109, 101, 32, 58] = .ok [58] ([], [110, 97, 109, 101], [32]) := by decide +kernel
example : Model.tokenChars [32, 110, 97, 109, 101, 32, 58] = .ok [58] ([32], [110, 97, 109, 101], [32]) := by decide +kernel

/-! src/headers.rs `test_name` -/
example : HeaderParser.name [72, 101, 108, 108, 111, 58, 32, 119, 111, 114, 108, 100] = .ok [58, 32, 119, 111, 114, 108, 100] ⟨[72, 101, 108, 108, 111], 0⟩ := by decide +kernel
example : HeaderParser.name [72, 111, 115, 116, 58, 119, 119, 119, 46, 103, 111, 111, 103, 108, 101, 46, 99, 111, 109, 13, 78, 97, 109, 101, 58, 32, 86, 97, 108, 117, 101] = .ok [58, 119, 119, 119, 46, 103, 111, 111, 103, 108, 101, 46, 99, 111, 109, 13, 78, 97, 109, 101, 58, 32, 86, 97, 108, 117, 101] ⟨[72, 111, 115, 116], 0⟩ := by decide +kernel
example : HeaderParser.name [72, 101, 108, 108, 111, 32, 58, 32, 119, 111, 114, 108, 100] = .ok [58, 32, 119, 111, 114, 108, 100] ⟨[72, 101, 108, 108, 111], 64⟩ := by decide +kernel
example : HeaderParser.name [32, 72, 101, 108, 108, 111, 32, 58, 32, 119, 111, 114, 108, 100] = .ok [58, 32, 119, 111, 114, 108, 100] ⟨[72, 101, 108, 108, 111], 192⟩ := by decide +kernel
example : HeaderParser.name [72, 101, 108, 108, 111, 59, 105, 110, 118, 97, 108, 105, 100, 58, 32, 119, 111, 114, 108, 100] = .ok [58, 32, 119, 111, 114, 108, 100] ⟨[72, 101, 108, 108, 111, 59, 105, 110, 118, 97, 108, 105, 100], 16⟩ := by decide +kernel
example : HeaderParser.name [72, 101, 108, 108, 111, 32, 105, 110, 118, 97, 108, 105, 100, 58, 32, 119, 111, 114, 108, 100] = .ok [58, 32, 119, 111, 114, 108, 100] ⟨[72, 101, 108, 108, 111, 32, 105, 110, 118, 97, 108, 105, 100], 16⟩ := by decide +kernel
example : HeaderParser.name [32, 72, 101, 108, 108, 111, 32, 105, 110, 118, 97, 108, 105, 100, 32, 58, 32, 119, 111, 114, 108, 100] = .ok [58, 32, 119, 111, 114, 108, 100] ⟨[72, 101, 108, 108, 111, 32, 105, 110, 118, 97, 108, 105, 100], 208⟩ := by decide +kernel
example : HeaderParser.name [32, 32, 32, 58, 32, 119, 111, 114, 108, 100] = .ok [58, 32, 119, 111, 114, 108, 100] ⟨[], 192⟩ := by decide +kernel

/-! src/headers.rs `test_null` -/
example : Model.hpNull [116, 101, 115, 116] = .err := by decide +kernel
example : Model.hpNull [13, 10] = .err := by decide +kernel
example : Model.hpNull [10] = .err := by decide +kernel
example : Model.hpNull [0, 97] = .ok [97] ([0], 256) := by decide +kernel

/-! src/headers.rs `test_eol` -/
example : reqParser.eol [116, 101, 115, 116] = .err := by decide +kernel
example : resParser.eol [116, 101, 115, 116] = .err := by decide +kernel
example : reqParser.eol [13, 10] = .incomplete := by decide +kernel
example : resParser.eol [13, 10] = .incomplete := by decide +kernel
example : reqParser.eol [10] = .incomplete := by decide +kernel
example : resParser.eol [10] = .incomplete := by decide +kernel
example : reqParser.eol [13, 10, 9] = .err := by decide +kernel
example : resParser.eol [13, 10, 9] = .err := by decide +kernel
example : reqParser.eol [13, 97] = .err := by decide +kernel
example : resParser.eol [13, 97] = .ok [97] ([13], 0) := by decide +kernel
example : reqParser.eol [13, 13] = .err := by decide +kernel
example : resParser.eol [13, 13] = .ok [13] ([13], 0) := by decide +kernel
example : reqParser.eol [10, 13] = .ok [13] ([10], 0) := by decide +kernel
example : resParser.eol [10, 13] = .incomplete := by decide +kernel
example : reqParser.eol [10, 13, 97] = .ok [13, 97] ([10], 0) := by decide +kernel
example : resParser.eol [10, 13, 97] = .ok [97] ([10, 13], 0) := by decide +kernel
example : reqParser.eol [10, 13, 10] = .ok [13, 10] ([10], 0) := by decide +kernel
example : resParser.eol [10, 13, 10] = .ok [10] ([10, 13], 0) := by decide +kernel
example : reqParser.eol [10, 13, 10, 13] = .ok [13, 10, 13] ([10], 0) := by decide +kernel
example : resParser.eol [10, 13, 10, 13] = .ok [10, 13] ([10, 13], 0) := by decide +kernel
example : reqParser.eol [10, 97] = .ok [97] ([10], 0) := by decide +kernel
example : resParser.eol [10, 97] = .ok [97] ([10], 0) := by decide +kernel
example : reqParser.eol [10, 13, 13, 10, 97] = .ok [13, 10, 97] ([10, 13], 1024) := by decide +kernel
example : resParser.eol [10, 13, 13, 10, 97] = .ok [13, 10, 97] ([10, 13], 0) := by decide +kernel
example : reqParser.eol [13, 10, 13, 10, 97] = .ok [13, 10, 97] ([13, 10], 0) := by decide +kernel
example : resParser.eol [13, 10, 13, 10, 97] = .ok [13, 10, 97] ([13, 10], 0) := by decide +kernel
example : reqParser.eol [13, 10] = .incomplete := by decide +kernel
example : resParser.eol [13, 10] = .incomplete := by decide +kernel
example : reqParser.eol [10] = .incomplete := by decide +kernel
example : resParser.eol [10] = .incomplete := by decide +kernel
example : reqParser.eol [10, 13, 13, 10] = .ok [13, 10] ([10, 13], 1024) := by decide +kernel
example : resParser.eol [10, 13, 13, 10] = .ok [13, 10] ([10, 13], 0) := by decide +kernel
example : reqParser.eol [13, 10, 13, 10] = .ok [13, 10] ([13, 10], 0) := by decide +kernel
example : resParser.eol [13, 10, 13, 10] = .ok [13, 10] ([13, 10], 0) := by decide +kernel
example : reqParser.eol [0, 97] = .err := by decide +kernel
example : resParser.eol [0, 97] = .err := by decide +kernel

/-! src/headers.rs `test_null_or_eol` -/
example : reqParser.nullOrEol [116, 101, 115, 116] = .err := by decide +kernel
example : resParser.nullOrEol [116, 101, 115, 116] = .err := by decide +kernel
example : reqParser.nullOrEol [13, 10] = .incomplete := by decide +kernel
example : resParser.nullOrEol [13, 10] = .incomplete := by decide +kernel
example : reqParser.nullOrEol [10] = .incomplete := by decide +kernel
example : resParser.nullOrEol [10] = .incomplete := by decide +kernel
example : reqParser.nullOrEol [13, 10, 9] = .err := by decide +kernel
example : resParser.nullOrEol [13, 10, 9] = .err := by decide +kernel
example : reqParser.nullOrEol [13, 97] = .err := by decide +kernel
example : resParser.nullOrEol [13, 97] = .ok [97] ([13], 0) := by decide +kernel
example : reqParser.nullOrEol [13, 13] = .err := by decide +kernel
example : resParser.nullOrEol [13, 13] = .ok [13] ([13], 0) := by decide +kernel
example : reqParser.nullOrEol [10, 13] = .ok [13] ([10], 0) := by decide +kernel
example : resParser.nullOrEol [10, 13] = .incomplete := by decide +kernel
example : reqParser.nullOrEol [10, 13, 97] = .ok [13, 97] ([10], 0) := by decide +kernel
example : resParser.nullOrEol [10, 13, 97] = .ok [97] ([10, 13], 0) := by decide +kernel
example : reqParser.nullOrEol [10, 13, 10] = .ok [13, 10] ([10], 0) := by decide +kernel
example : resParser.nullOrEol [10, 13, 10] = .ok [10] ([10, 13], 0) := by decide +kernel
example : reqParser.nullOrEol [10, 13, 10, 13] = .ok [13, 10, 13] ([10], 0) := by decide +kernel
example : resParser.nullOrEol [10, 13, 10, 13] = .ok [10, 13] ([10, 13], 0) := by decide +kernel
example : reqParser.nullOrEol [10, 97] = .ok [97] ([10], 0) := by decide +kernel
example : resParser.nullOrEol [10, 97] = .ok [97] ([10], 0) := by decide +kernel
example : reqParser.nullOrEol [10, 13, 13, 10, 97] = .ok [13, 10, 97] ([10, 13], 1024) := by decide +kernel
example : resParser.nullOrEol [10, 13, 13, 10, 97] = .ok [13, 10, 97] ([10, 13], 0) := by decide +kernel
example : reqParser.nullOrEol [13, 10, 13, 10, 97] = .ok [13, 10, 97] ([13, 10], 0) := by decide +kernel
example : resParser.nullOrEol [13, 10, 13, 10, 97] = .ok [13, 10, 97] ([13, 10], 0) := by decide +kernel
example : reqParser.nullOrEol [13, 10] = .incomplete := by decide +kernel
example : resParser.nullOrEol [13, 10] = .incomplete := by decide +kernel
example : reqParser.nullOrEol [10] = .incomplete := by decide +kernel
example : resParser.nullOrEol [10] = .incomplete := by decide +kernel
example : reqParser.nullOrEol [10, 13, 13, 10] = .ok [13, 10] ([10, 13], 1024) := by decide +kernel
example : resParser.nullOrEol [10, 13, 13, 10] = .ok [13, 10] ([10, 13], 0) := by decide +kernel
example : reqParser.nullOrEol [13, 10, 13, 10] = .ok [13, 10] ([13, 10], 0) := by decide +kernel
example : resParser.nullOrEol [13, 10, 13, 10] = .ok [13, 10] ([13, 10], 0) := by decide +kernel
example : reqParser.nullOrEol [0, 97] = .ok [97] ([0], 256) := by decide +kernel
example : resParser.nullOrEol [0, 97] = .ok [97] ([0], 256) := by decide +kernel

/-! src/headers.rs `test_folding` -/
example : reqParser.folding [116, 101, 115, 116] = .err := by decide +kernel
example : resParser.folding [116, 101, 115, 116] = .err := by decide +kernel
example : reqParser.folding [13] = .err := by decide +kernel
example : resParser.folding [13] = .incomplete := by decide +kernel
example : reqParser.folding [13, 13] = .err := by decide +kernel
example : resParser.folding [13, 13] = .err := by decide +kernel
example : reqParser.folding [13, 10] = .incomplete := by decide +kernel
example : resParser.folding [13, 10] = .incomplete := by decide +kernel
example : reqParser.folding [13, 10, 9] = .ok [] (([13, 10], 1), (some [9])) := by decide +kernel
example : resParser.folding [13, 10, 9] = .ok [] (([13, 10], 1), (some [9])) := by decide +kernel
example : reqParser.folding [13, 10, 32, 9] = .ok [9] (([13, 10], 1), (some [32])) := by decide +kernel
example : resParser.folding [13, 10, 32, 9] = .ok [9] (([13, 10], 1), (some [32])) := by decide +kernel
example : reqParser.folding [13, 10, 13] = .err := by decide +kernel
example : resParser.folding [13, 10, 13] = .err := by decide +kernel
example : reqParser.folding [13, 10, 13, 10] = .err := by decide +kernel
example : resParser.folding [13, 10, 13, 10] = .err := by decide +kernel
example : reqParser.folding [13, 10, 13, 13] = .err := by decide +kernel
example : resParser.folding [13, 10, 13, 13] = .err := by decide +kernel
example : reqParser.folding [13, 10, 32, 110, 101, 120, 116] = .ok [110, 101, 120, 116] (([13, 10], 1), (some [32])) := by decide +kernel
example : resParser.folding [13, 10, 32, 110, 101, 120, 116] = .ok [110, 101, 120, 116] (([13, 10], 1), (some [32])) := by decide +kernel
example : reqParser.folding [13, 10, 9, 110, 101, 120, 116] = .ok [110, 101, 120, 116] (([13, 10], 1), (some [9])) := by decide +kernel
example : resParser.folding [13, 10, 9, 110, 101, 120, 116] = .ok [110, 101, 120, 116] (([13, 10], 1), (some [9])) := by decide +kernel
example : reqParser.folding [13, 10, 9, 32, 110, 101, 120, 116] = .ok [32, 110, 101, 120, 116] (([13, 10], 1), (some [9])) := by decide +kernel
example : resParser.folding [13, 10, 9, 32, 110, 101, 120, 116] = .ok [32, 110, 101, 120, 116] (([13, 10], 1), (some [9])) := by decide +kernel
example : reqParser.folding [13, 10, 9, 9, 13, 10] = .ok [9, 13, 10] (([13, 10], 1), (some [9])) := by decide +kernel
example : resParser.folding [13, 10, 9, 9, 13, 10] = .ok [9, 13, 10] (([13, 10], 1), (some [9])) := by decide +kernel
example : reqParser.folding [13, 10, 9, 32, 9, 13] = .ok [32, 9, 13] (([13, 10], 1), (some [9])) := by decide +kernel
example : resParser.folding [13, 10, 9, 32, 9, 13] = .ok [32, 9, 13] (([13, 10], 1), (some [9])) := by decide +kernel
example : reqParser.folding [13, 10, 32, 32, 32, 32, 32, 10] = .ok [32, 32, 32, 32, 10] (([13, 10], 1), (some [32])) := by decide +kernel
example : resParser.folding [13, 10, 32, 32, 32, 32, 32, 10] = .ok [32, 32, 32, 32, 10] (([13, 10], 1), (some [32])) := by decide +kernel
example : reqParser.folding [10, 13, 32, 32, 32, 32, 32, 10] = .err := by decide +kernel
example : resParser.folding [10, 13, 32, 32, 32, 32, 32, 10] = .ok [32, 32, 32, 32, 10] (([10, 13], 1), (some [32])) := by decide +kernel
example : reqParser.folding [13, 10, 13, 110, 101, 120, 116] = .err := by decide +kernel
example : resParser.folding [13, 10, 13, 110, 101, 120, 116] = .err := by decide +kernel
example : reqParser.folding [13, 10, 13, 9, 32, 110, 101, 120, 116] = .err := by decide +kernel
example : resParser.folding [13, 10, 13, 9, 32, 110, 101, 120, 116] = .err := by decide +kernel
example : reqParser.folding [13, 32, 32, 32, 32, 104, 101, 108, 108, 111, 32, 10] = .err := by decide +kernel
example : resParser.folding [13, 32, 32, 32, 32, 104, 101, 108, 108, 111, 32, 10] = .ok [32, 32, 32, 104, 101, 108, 108, 111, 32, 10] (([13], 1), (some [32])) := by decide +kernel

/-! src/headers.rs `test_folding_or_terminator` -/
example : reqParser.foldingOrTerminator [13, 10] = .incomplete := by decide +kernel
example : resParser.foldingOrTerminator [13, 10] = .incomplete := by decide +kernel
example : reqParser.foldingOrTerminator [13, 10, 9] = .ok [] (([13, 10], 1), (some [9])) := by decide +kernel
example : resParser.foldingOrTerminator [13, 10, 9] = .ok [] (([13, 10], 1), (some [9])) := by decide +kernel
example : reqParser.foldingOrTerminator [13, 10, 32] = .ok [] (([13, 10], 1), (some [32])) := by decide +kernel
example : resParser.foldingOrTerminator [13, 10, 32] = .ok [] (([13, 10], 1), (some [32])) := by decide +kernel
example : reqParser.foldingOrTerminator [13, 10, 13] = .ok [13] (([13, 10], 0), none) := by decide +kernel
example : resParser.foldingOrTerminator [13, 10, 13] = .incomplete := by decide +kernel
example : reqParser.foldingOrTerminator [13, 13] = .err := by decide +kernel
example : resParser.foldingOrTerminator [13, 13] = .ok [13] (([13], 0), none) := by decide +kernel
example : reqParser.foldingOrTerminator [13, 10, 9, 97] = .ok [97] (([13, 10], 1), (some [9])) := by decide +kernel
example : resParser.foldingOrTerminator [13, 10, 9, 97] = .ok [97] (([13, 10], 1), (some [9])) := by decide +kernel
example : reqParser.foldingOrTerminator [13, 10, 13, 97] = .ok [13, 97] (([13, 10], 0), none) := by decide +kernel
example : resParser.foldingOrTerminator [13, 10, 13, 97] = .ok [13, 97] (([13, 10], 0), none) := by decide +kernel
example : reqParser.foldingOrTerminator [13, 10, 32, 97] = .ok [97] (([13, 10], 1), (some [32])) := by decide +kernel
example : resParser.foldingOrTerminator [13, 10, 32, 97] = .ok [97] (([13, 10], 1), (some [32])) := by decide +kernel
example : reqParser.foldingOrTerminator [13, 10, 97] = .ok [97] (([13, 10], 0), none) := by decide +kernel
example : resParser.foldingOrTerminator [13, 10, 97] = .ok [97] (([13, 10], 0), none) := by decide +kernel
example : reqParser.foldingOrTerminator [10, 10, 97] = .ok [10, 97] (([10], 0), none) := by decide +kernel
example : resParser.foldingOrTerminator [10, 10, 97] = .ok [10, 97] (([10], 0), none) := by decide +kernel
example : reqParser.foldingOrTerminator [13, 10, 13, 10, 97] = .ok [13, 10, 97] (([13, 10], 0), none) := by decide +kernel
example : resParser.foldingOrTerminator [13, 10, 13, 10, 97] = .ok [13, 10, 97] (([13, 10], 0), none) := by decide +kernel
example : reqParser.foldingOrTerminator [10, 13, 13, 10, 97] = .ok [13, 10, 97] (([10, 13], 1024), none) := by decide +kernel
example : resParser.foldingOrTerminator [10, 13, 13, 10, 97] = .ok [13, 10, 97] (([10, 13], 0), none) := by decide +kernel
example : reqParser.foldingOrTerminator [0, 97] = .ok [97] (([0], 256), none) := by decide +kernel
example : resParser.foldingOrTerminator [0, 97] = .ok [97] (([0], 256), none) := by decide +kernel
example : reqParser.foldingOrTerminator [13, 32, 97] = .err := by decide +kernel
example : resParser.foldingOrTerminator [13, 32, 97] = .ok [97] (([13], 1), (some [32])) := by decide +kernel
example : reqParser.foldingOrTerminator [10, 32, 32, 13, 10, 10] = .ok [32, 13, 10, 10] (([10], 1), (some [32])) := by decide +kernel
example : resParser.foldingOrTerminator [10, 32, 32, 13, 10, 10] = .ok [32, 13, 10, 10] (([10], 1), (some [32])) := by decide +kernel

/-! src/headers.rs `test_value_bytes` -/
example : reqParser.valueBytes [32] = .incomplete := by decide +kernel
example : resParser.valueBytes [32] = .incomplete := by decide +kernel
example : reqParser.valueBytes [118, 97, 108, 117, 101] = .incomplete := by decide +kernel
example : resParser.valueBytes [118, 97, 108, 117, 101] = .incomplete := by decide +kernel
example : reqParser.valueBytes [9, 118, 97, 108, 117, 101] = .incomplete := by decide +kernel
example : resParser.valueBytes [9, 118, 97, 108, 117, 101] = .incomplete := by decide +kernel
example : reqParser.valueBytes [32, 118, 97, 108, 117, 101] = .incomplete := by decide +kernel
example : resParser.valueBytes [32, 118, 97, 108, 117, 101] = .incomplete := by decide +kernel
example : reqParser.valueBytes [118, 97, 108, 117, 101, 13, 10] = .incomplete := by decide +kernel
example : resParser.valueBytes [118, 97, 108, 117, 101, 13, 10] = .incomplete := by decide +kernel
example : reqParser.valueBytes [13, 13] = .incomplete := by decide +kernel
example : resParser.valueBytes [13, 13] = .ok [13] ([], (([13], 0), none)) := by decide +kernel
example : reqParser.valueBytes [119, 119, 119, 46, 103, 111, 111, 103, 108, 101, 46, 99, 111, 109, 13, 78, 97, 109, 101, 58, 32, 86, 97, 108, 117, 101, 13, 10, 13, 10] = .ok [13, 10] ([119, 119, 119, 46, 103, 111, 111, 103, 108, 101, 46, 99, 111, 109, 13, 78, 97, 109, 101, 58, 32, 86, 97, 108, 117, 101], (([13, 10], 0), none)) := by decide +kernel
example : resParser.valueBytes [119, 119, 119, 46, 103, 111, 111, 103, 108, 101, 46, 99, 111, 109, 13, 78, 97, 109, 101, 58, 32, 86, 97, 108, 117, 101, 13, 10, 13, 10] = .ok [78, 97, 109, 101, 58, 32, 86, 97, 108, 117, 101, 13, 10, 13, 10] ([119, 119, 119, 46, 103, 111, 111, 103, 108, 101, 46, 99, 111, 109], (([13], 0), none)) := by decide +kernel
example : reqParser.valueBytes [119, 119, 119, 46, 103, 111, 111, 103, 108, 101, 46, 99, 111, 109, 13, 78, 97, 109, 101, 58, 32, 86, 97, 108, 117, 101, 10, 13, 10] = .ok [13, 10] ([119, 119, 119, 46, 103, 111, 111, 103, 108, 101, 46, 99, 111, 109, 13, 78, 97, 109, 101, 58, 32, 86, 97, 108, 117, 101], (([10], 0), none)) := by decide +kernel
example : resParser.valueBytes [119, 119, 119, 46, 103, 111, 111, 103, 108, 101, 46, 99, 111, 109, 13, 78, 97, 109, 101, 58, 32, 86, 97, 108, 117, 101, 10, 13, 10] = .ok [78, 97, 109, 101, 58, 32, 86, 97, 108, 117, 101, 10, 13, 10] ([119, 119, 119, 46, 103, 111, 111, 103, 108, 101, 46, 99, 111, 109], (([13], 0), none)) := by decide +kernel
example : reqParser.valueBytes [119, 119, 119, 46, 103, 111, 111, 103, 108, 101, 46, 99, 111, 109, 13, 78, 97, 109, 101, 58, 32, 86, 97, 108, 117, 101, 13, 10, 10] = .ok [10] ([119, 119, 119, 46, 103, 111, 111, 103, 108, 101, 46, 99, 111, 109, 13, 78, 97, 109, 101, 58, 32, 86, 97, 108, 117, 101], (([13, 10], 0), none)) := by decide +kernel
example : resParser.valueBytes [119, 119, 119, 46, 103, 111, 111, 103, 108, 101, 46, 99, 111, 109, 13, 78, 97, 109, 101, 58, 32, 86, 97, 108, 117, 101, 13, 10, 10] = .ok [78, 97, 109, 101, 58, 32, 86, 97, 108, 117, 101, 13, 10, 10] ([119, 119, 119, 46, 103, 111, 111, 103, 108, 101, 46, 99, 111, 109], (([13], 0), none)) := by decide +kernel
example : reqParser.valueBytes [13, 10, 110, 101, 120, 116] = .ok [110, 101, 120, 116] ([], (([13, 10], 0), none)) := by decide +kernel
example : resParser.valueBytes [13, 10, 110, 101, 120, 116] = .ok [110, 101, 120, 116] ([], (([13, 10], 0), none)) := by decide +kernel
example : reqParser.valueBytes [118, 97, 108, 117, 101, 13, 10, 110, 97, 109, 101, 50] = .ok [110, 97, 109, 101, 50] ([118, 97, 108, 117, 101], (([13, 10], 0), none)) := by decide +kernel
example : resParser.valueBytes [118, 97, 108, 117, 101, 13, 10, 110, 97, 109, 101, 50] = .ok [110, 97, 109, 101, 50] ([118, 97, 108, 117, 101], (([13, 10], 0), none)) := by decide +kernel
example : reqParser.valueBytes [118, 97, 108, 117, 101, 10, 32, 109, 111, 114, 101] = .ok [109, 111, 114, 101] ([118, 97, 108, 117, 101], (([10], 1), (some [32]))) := by decide +kernel
example : resParser.valueBytes [118, 97, 108, 117, 101, 10, 32, 109, 111, 114, 101] = .ok [109, 111, 114, 101] ([118, 97, 108, 117, 101], (([10], 1), (some [32]))) := by decide +kernel
example : reqParser.valueBytes [118, 97, 108, 117, 101, 13, 10, 9, 32, 109, 111, 114, 101] = .ok [32, 109, 111, 114, 101] ([118, 97, 108, 117, 101], (([13, 10], 1), (some [9]))) := by decide +kernel
example : resParser.valueBytes [118, 97, 108, 117, 101, 13, 10, 9, 32, 109, 111, 114, 101] = .ok [32, 109, 111, 114, 101] ([118, 97, 108, 117, 101], (([13, 10], 1), (some [9]))) := by decide +kernel
example : reqParser.valueBytes [118, 97, 108, 117, 101, 13, 10, 9, 32, 109, 111, 114, 101] = .ok [32, 109, 111, 114, 101] ([118, 97, 108, 117, 101], (([13, 10], 1), (some [9]))) := by decide +kernel
example : resParser.valueBytes [118, 97, 108, 117, 101, 13, 10, 9, 32, 109, 111, 114, 101] = .ok [32, 109, 111, 114, 101] ([118, 97, 108, 117, 101], (([13, 10], 1), (some [9]))) := by decide +kernel
example : reqParser.valueBytes [118, 97, 108, 117, 101, 10, 13, 109, 111, 114, 101] = .ok [13, 109, 111, 114, 101] ([118, 97, 108, 117, 101], (([10], 0), none)) := by decide +kernel
example : resParser.valueBytes [118, 97, 108, 117, 101, 10, 13, 109, 111, 114, 101] = .ok [109, 111, 114, 101] ([118, 97, 108, 117, 101], (([10, 13], 0), none)) := by decide +kernel
example : reqParser.valueBytes [118, 97, 108, 117, 101, 13, 10, 13, 109, 111, 114, 101] = .ok [13, 109, 111, 114, 101] ([118, 97, 108, 117, 101], (([13, 10], 0), none)) := by decide +kernel
example : resParser.valueBytes [118, 97, 108, 117, 101, 13, 10, 13, 109, 111, 114, 101] = .ok [13, 109, 111, 114, 101] ([118, 97, 108, 117, 101], (([13, 10], 0), none)) := by decide +kernel

/-! src/headers.rs `test_value` -/
example : reqParser.value [118, 97, 108, 117, 101, 13, 10, 32, 109, 111, 114, 101, 13, 10] = .incomplete := by decide +kernel
example : resParser.value [118, 97, 108, 117, 101, 13, 10, 32, 109, 111, 114, 101, 13, 10] = .incomplete := by decide +kernel
example : reqParser.value [118, 97, 108, 117, 101, 13, 10, 32] = .incomplete := by decide +kernel
example : resParser.value [118, 97, 108, 117, 101, 13, 10, 32] = .incomplete := by decide +kernel
example : reqParser.value [118, 97, 108, 117, 101, 13, 10, 32, 109, 111, 114, 101] = .incomplete := by decide +kernel
example : resParser.value [118, 97, 108, 117, 101, 13, 10, 32, 109, 111, 114, 101] = .incomplete := by decide +kernel
example : reqParser.value [118, 97, 108, 117, 101, 13, 10, 32, 109, 111, 114, 101, 10] = .incomplete := by decide +kernel
example : resParser.value [118, 97, 108, 117, 101, 13, 10, 32, 109, 111, 114, 101, 10] = .incomplete := by decide +kernel
example : reqParser.value [118, 97, 108, 117, 101, 10, 32, 109, 111, 114, 101, 13, 10] = .incomplete := by decide +kernel
example : resParser.value [118, 97, 108, 117, 101, 10, 32, 109, 111, 114, 101, 13, 10] = .incomplete := by decide +kernel
example : reqParser.value [13, 10, 32, 118, 97, 108, 117, 101, 32, 32, 32, 32, 13, 10, 110, 101, 120, 116, 58] = .ok [110, 101, 120, 116, 58] ⟨[118, 97, 108, 117, 101], 1⟩ := by decide +kernel
example : resParser.value [13, 10, 32, 118, 97, 108, 117, 101, 32, 32, 32, 32, 13, 10, 110, 101, 120, 116, 58] = .ok [110, 101, 120, 116, 58] ⟨[118, 97, 108, 117, 101], 1⟩ := by decide +kernel
example : reqParser.value [13, 10, 32, 118, 97, 108, 117, 101, 13, 10, 110, 101, 120, 116, 58] = .ok [110, 101, 120, 116, 58] ⟨[118, 97, 108, 117, 101], 1⟩ := by decide +kernel
example : resParser.value [13, 10, 32, 118, 97, 108, 117, 101, 13, 10, 110, 101, 120, 116, 58] = .ok [110, 101, 120, 116, 58] ⟨[118, 97, 108, 117, 101], 1⟩ := by decide +kernel
example : reqParser.value [118, 97, 108, 117, 101, 13, 10, 32, 109, 111, 114, 101, 13, 10, 13, 10] = .ok [13, 10] ⟨[118, 97, 108, 117, 101, 32, 109, 111, 114, 101], 1⟩ := by decide +kernel
example : resParser.value [118, 97, 108, 117, 101, 13, 10, 32, 109, 111, 114, 101, 13, 10, 13, 10] = .ok [13, 10] ⟨[118, 97, 108, 117, 101, 32, 109, 111, 114, 101], 1⟩ := by decide +kernel
example : reqParser.value [118, 97, 108, 117, 101, 13, 10, 32, 109, 111, 114, 101, 13, 10, 9, 97, 110, 100, 32, 109, 111, 114, 101, 13, 10, 110, 101, 120, 116, 58] = .ok [110, 101, 120, 116, 58] ⟨[118, 97, 108, 117, 101, 32, 109, 111, 114, 101, 9, 97, 110, 100, 32, 109, 111, 114, 101], 1⟩ := by decide +kernel
example : resParser.value [118, 97, 108, 117, 101, 13, 10, 32, 109, 111, 114, 101, 13, 10, 9, 97, 110, 100, 32, 109, 111, 114, 101, 13, 10, 110, 101, 120, 116, 58] = .ok [110, 101, 120, 116, 58] ⟨[118, 97, 108, 117, 101, 32, 109, 111, 114, 101, 9, 97, 110, 100, 32, 109, 111, 114, 101], 1⟩ := by decide +kernel
example : reqParser.value [118, 97, 108, 117, 101, 10, 9, 9, 109, 111, 114, 101, 13, 10, 32, 32, 97, 110, 100, 13, 10, 32, 109, 111, 114, 101, 13, 10, 110, 101, 120, 116, 58] = .ok [110, 101, 120, 116, 58] ⟨[118, 97, 108, 117, 101, 9, 9, 109, 111, 114, 101, 32, 32, 97, 110, 100, 32, 109, 111, 114, 101], 1⟩ := by decide +kernel
example : resParser.value [118, 97, 108, 117, 101, 10, 9, 9, 109, 111, 114, 101, 13, 10, 32, 32, 97, 110, 100, 13, 10, 32, 109, 111, 114, 101, 13, 10, 110, 101, 120, 116, 58] = .ok [110, 101, 120, 116, 58] ⟨[118, 97, 108, 117, 101, 9, 9, 109, 111, 114, 101, 32, 32, 97, 110, 100, 32, 109, 111, 114, 101], 1⟩ := by decide +kernel
example : reqParser.value [118, 97, 108, 117, 101, 10, 32, 109, 111, 114, 101, 10, 13, 9, 97, 110, 100, 32, 109, 111, 114, 101, 13, 10, 13, 10] = .ok [13, 9, 97, 110, 100, 32, 109, 111, 114, 101, 13, 10, 13, 10] ⟨[118, 97, 108, 117, 101, 32, 109, 111, 114, 101], 1⟩ := by decide +kernel
example : resParser.value [118, 97, 108, 117, 101, 10, 32, 109, 111, 114, 101, 10, 13, 9, 97, 110, 100, 32, 109, 111, 114, 101, 13, 10, 13, 10] = .ok [13, 10] ⟨[118, 97, 108, 117, 101, 32, 109, 111, 114, 101, 9, 97, 110, 100, 32, 109, 111, 114, 101], 1⟩ := by decide +kernel
example : reqParser.value [118, 97, 108, 117, 101, 10, 13, 9, 9, 109, 111, 114, 101, 13, 10, 32, 32, 97, 110, 100, 13, 10, 32, 109, 111, 114, 101, 13, 10, 110, 101, 120, 116, 58] = .ok [13, 9, 9, 109, 111, 114, 101, 13, 10, 32, 32, 97, 110, 100, 13, 10, 32, 109, 111, 114, 101, 13, 10, 110, 101, 120, 116, 58] ⟨[118, 97, 108, 117, 101], 0⟩ := by decide +kernel
example : resParser.value [118, 97, 108, 117, 101, 10, 13, 9, 9, 109, 111, 114, 101, 13, 10, 32, 32, 97, 110, 100, 13, 10, 32, 109, 111, 114, 101, 13, 10, 110, 101, 120, 116, 58] = .ok [110, 101, 120, 116, 58] ⟨[118, 97, 108, 117, 101, 9, 9, 109, 111, 114, 101, 32, 32, 97, 110, 100, 32, 109, 111, 114, 101], 1⟩ := by decide +kernel
example : reqParser.value [118, 97, 108, 117, 101, 10, 13, 9, 9, 109, 111, 114, 101, 13, 10, 32, 32, 97, 110, 100, 13, 10, 32, 109, 111, 114, 101, 13, 10, 110, 101, 120, 116, 58] = .ok [13, 9, 9, 109, 111, 114, 101, 13, 10, 32, 32, 97, 110, 100, 13, 10, 32, 109, 111, 114, 101, 13, 10, 110, 101, 120, 116, 58] ⟨[118, 97, 108, 117, 101], 0⟩ := by decide +kernel
example : resParser.value [118, 97, 108, 117, 101, 10, 13, 9, 9, 109, 111, 114, 101, 13, 10, 32, 32, 97, 110, 100, 13, 10, 32, 109, 111, 114, 101, 13, 10, 110, 101, 120, 116, 58] = .ok [110, 101, 120, 116, 58] ⟨[118, 97, 108, 117, 101, 9, 9, 109, 111, 114, 101, 32, 32, 97, 110, 100, 32, 109, 111, 114, 101], 1⟩ := by decide +kernel
example : reqParser.value [118, 97, 108, 117, 101, 49, 10, 13, 32, 110, 101, 120, 116, 58, 32, 118, 97, 108, 117, 101, 50, 13, 10, 32, 32, 97, 110, 100, 13, 10, 32, 109, 111, 114, 101, 13, 10, 110, 101, 120, 116, 51, 58] = .ok [13, 32, 110, 101, 120, 116, 58, 32, 118, 97, 108, 117, 101, 50, 13, 10, 32, 32, 97, 110, 100, 13, 10, 32, 109, 111, 114, 101, 13, 10, 110, 101, 120, 116, 51, 58] ⟨[118, 97, 108, 117, 101, 49], 0⟩ := by decide +kernel
example : resParser.value [118, 97, 108, 117, 101, 49, 10, 13, 32, 110, 101, 120, 116, 58, 32, 118, 97, 108, 117, 101, 50, 13, 10, 32, 32, 97, 110, 100, 13, 10, 32, 109, 111, 114, 101, 13, 10, 110, 101, 120, 116, 51, 58] = .ok [110, 101, 120, 116, 58, 32, 118, 97, 108, 117, 101, 50, 13, 10, 32, 32, 97, 110, 100, 13, 10, 32, 109, 111, 114, 101, 13, 10, 110, 101, 120, 116, 51, 58] ⟨[118, 97, 108, 117, 101, 49], 0⟩ := by decide +kernel
example : reqParser.value [118, 97, 108, 117, 101, 13, 10, 110, 101, 120, 116, 58] = .ok [110, 101, 120, 116, 58] ⟨[118, 97, 108, 117, 101], 0⟩ := by decide +kernel
example : resParser.value [118, 97, 108, 117, 101, 13, 10, 110, 101, 120, 116, 58] = .ok [110, 101, 120, 116, 58] ⟨[118, 97, 108, 117, 101], 0⟩ := by decide +kernel
example : reqParser.value [13, 10, 110, 101, 120, 116, 58] = .ok [110, 101, 120, 116, 58] ⟨[], 8⟩ := by decide +kernel
example : resParser.value [13, 10, 110, 101, 120, 116, 58] = .ok [110, 101, 120, 116, 58] ⟨[], 8⟩ := by decide +kernel
example : reqParser.value [98, 13, 10, 32, 99, 58, 32, 100, 13, 10, 65, 65, 65] = .ok [65, 65, 65] ⟨[98, 32, 99, 58, 32, 100], 1⟩ := by decide +kernel
example : resParser.value [98, 13, 10, 32, 99, 58, 32, 100, 13, 10, 65, 65, 65] = .ok [99, 58, 32, 100, 13, 10, 65, 65, 65] ⟨[98], 0⟩ := by decide +kernel
example : reqParser.value [98, 13, 10, 32, 58, 32, 100, 13, 10, 65, 65, 65] = .ok [65, 65, 65] ⟨[98, 32, 58, 32, 100], 1⟩ := by decide +kernel
example : resParser.value [98, 13, 10, 32, 58, 32, 100, 13, 10, 65, 65, 65] = .ok [65, 65, 65] ⟨[98, 32, 58, 32, 100], 1⟩ := by decide +kernel

end Model
