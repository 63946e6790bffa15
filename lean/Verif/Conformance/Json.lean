import Verif.Model.Json
/-
The JSON reader and writer against texts of RFC 8259 and against texts its grammar excludes.
-/
namespace Siwe.Json

/-- RFC 8259, section 13, second example -/
def rfcSample : Bytes := ascii ("[\n        {\n           \"precision\": \"zip\",\n           \"Latitude\":  37.7668,\n" ++
  "           \"Longitude\": -122.3959,\n           \"Address\":   \"\",\n           \"City\":      \"SAN FRANCISCO\"\n        },\n" ++
  "        {\n           \"precision\": \"zip\",\n           \"Latitude\":  37.371991,\n           \"Address\":   null\n        }\n      ]")

example : (parse rfcSample).map text = some (ascii ("[{\"precision\":\"zip\",\"Latitude\":37.7668,\"Longitude\":-122.3959," ++
    "\"Address\":\"\",\"City\":\"SAN FRANCISCO\"},{\"precision\":\"zip\",\"Latitude\":37.371991,\"Address\":null}]")) := by
  decide +kernel

/-- RFC 8259, section 7: a character outside the Basic Multilingual Plane, `U+1D11E`, as a surrogate pair -/
example : readString (ascii "\\uD834\\uDD1E\\u00e9\\/\\b\"") = some (([0xF0, 0x9D, 0x84, 0x9E, 0xC3, 0xA9, 47, 8] : Bytes), []) := by
  decide +kernel

example : [ascii "", ascii " ", ascii "01", ascii "1.", ascii ".5", ascii "+1", ascii "-", ascii "1e", ascii "[1,]", ascii "[1",
    ascii "{\"a\":1,}", ascii "{\"a\" 1}", ascii "{a:1}", ascii "nul", ascii "nulll", ascii "True", ascii "1 2", ascii "\"a", ascii "\"\\x\"",
    ascii "\"\\u12g4\"", ascii "\"\n\"", ascii "'a'"].all (fun t => (parse t).isNone) = true := by decide +kernel

example : [ascii "0", ascii "-0", ascii "-0.5E-10", ascii "10.25e+3", ascii "[]", ascii "[ ]", ascii "{}", ascii "{ }", ascii "\"\"",
    ascii "true", ascii "\t[{},[[]]]\r\n", ascii "null"].all (fun t => (parse t).isSome) = true := by decide +kernel

/-- What `JSON.stringify` and `serde_json` write for a string with every kind of escape -/
example : quote (ascii "\"\\/\x08\t\n\x0c\r\x1f\x7fé") = ascii "\"\\\"\\\\/\\b\\t\\n\\f\\r\\u001f\x7fé\"" := by decide +kernel

end Siwe.Json
