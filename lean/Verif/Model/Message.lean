import Verif.Model.Base

/-!
# The messages of errors

`Display` for `Error`, which the crate `thiserror` derives from the attributes `#[error("..")]` of
src/result.rs: the text with the fields put in for the names in braces.
-/

namespace JLaw

/-- `to_string` for an error, src/result.rs 9-37. The spelling is the one of the code. -/
def Err.message : Err → String
  | .missingRequiredAttribute tag attr =>
    "Missing required attribute of " ++ attr ++ " at " ++ tag ++ " tag"
  | .missingRequiredTag tag => "Missing required tag of " ++ tag ++ " tag"
  | .attributeParseError tag attr => "Attribure parse error of " ++ attr ++ " at " ++ tag ++ " tag"
  | .wrongTagName wrong expected => "Tag name is " ++ wrong ++ " but expected " ++ expected
  | .unexpectedTag wrong tag => "Unexpected " ++ wrong ++ " tag at " ++ tag
  | .xmlParsing => "xml parsing error"
  | .parsingError what text => what ++ " parsing error: " ++ text
  | .io => "write error"

end JLaw
