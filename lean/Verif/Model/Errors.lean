/-
Texts of the errors of /repo. An error text may go on with a detail (the text of the error of the Go library
function that failed, or the level field); the model leaves the detail out.
-/
import Verif.Model.Types

namespace Radolan

/-- radolan.go:211-213 -/
def newError (function reason : String) : String := "radolan." ++ function ++ ": " ++ reason

/-- The error texts: header.go:46, 63, 71, 79, 88, 101, 107, 114, 125, 133, 138, 142, 149, 157; data.go:51, 81;
singlebyte.go:33, 41; littleendian.go:33, 41; runlength.go:30, 53, 65; radolan.go:126. What follows the text in an
error message (`err.Error()` or `lv`) is left out. -/
def Err.text : Err → String
  | .headerTooShort => newError "parseHeader" "header corrupted: too short"
  | .dataLength => newError "parseHeader" "could not parse data length: "
  | .captureTime => newError "parseHeader" "could not parse capture time: "
  | .forecastTime => newError "parseHeader" "could not parse forecast time: "
  | .interval => newError "parseHeader" "could not parse interval: "
  | .dimGP => newError "parseHeader" "could not parse dimensions (GP): "
  | .dimBG => newError "parseHeader" "could not parse dimensions (BG): "
  | .noDimension => newError "parseHeader" "no dimension information available"
  | .precision => newError "parseHeader" "could not parse precision: "
  | .levelTooShort => newError "parseHeader" "level field too short"
  | .levelCount => newError "parseHeader" "could not parse level count: "
  | .levelFormat => newError "parseHeader" "invalid level format: "
  | .levelValue => newError "parseHeader" "invalid level value: "
  | .format => newError "parseHeader" "invalid format value: "
  | .headerRequired => newError "parseData" "parsed header data required"
  | .unknownEncoding => newError "parseUnknown" "unknown encoding"
  | .readSingleByte => newError "readLineSingleByte" ""
  | .decodeSingleByte => newError "decodeSingleByte" "wrong destination or source size"
  | .readLittleEndian => newError "readLineLittleEndian" ""
  | .decodeLittleEndian => newError "decodeLittleEndian" "wrong destination or source size"
  | .readRunlength => newError "readLineRunlength" ""
  | .invalidOffset => newError "decodeRunlength" "invalid offset value"
  | .destinationExceeded => newError "decodeRunlength" "destination size exceeded"
  | .unknownUnit => newError "NewComposite" "data unit not defined in catalog. data values can be incorrect"

end Radolan
