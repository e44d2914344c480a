{
 "violationHash": {
  "claim": "none: which violations are merged does not depend on the hash value (C02 holds for every hash of the fields)",
  "tightened": []
 },
 "mapAdd": {
  "claim": "none: only the number of keys of this map is observable, the numbers in it are not used by the program",
  "tightened": []
 },
 "Registry.getRuleAtIndex": {
  "claim": "none: the text of the standard library's exception is not specified; that one is thrown is C06",
  "tightened": []
 },
 "assocFind": {
  "claim": "none: `default` is `none` here, the edited program is the same",
  "tightened": []
 },
 "createOptionalBool": {
  "claim": "none: `default` is `none` here, the edited program is the same",
  "tightened": []
 },
 "declHasAttribute": {
  "claim": "none: `default` is `none` here, the edited program is the same",
  "tightened": []
 },
 "SuppressCache.empty": {
  "claim": "none: `default` is `none` here, the edited program is the same",
  "tightened": []
 },
 "methodsVisit": {
  "claim": "none: `default` is `none` here, the edited program is the same",
  "tightened": []
 },
 "containsStr": {
  "claim": "none: an additional search position past the end finds nothing, the edited program is the same",
  "tightened": []
 },
 "regexMarker": {
  "claim": "none: an additional search position past the end finds nothing, the edited program is the same",
  "tightened": []
 },
 "outputPath": {
  "claim": "none: the text of the standard library's exception is not specified; that one is thrown is C16",
  "tightened": []
 },
 "substr": {
  "claim": "none: the text of the standard library's exception is not specified",
  "tightened": []
 },
 "reporterPath": {
  "claim": "C17: The reporter is looked for in the reporters directory next to the rules directory",
  "tightened": [
   "C17_exit_code (the specification of the exit code now names the reporter directory itself)"
  ]
 },
 "fieldsVisit": {
  "claim": "none: `default` is `none` here, the edited program is the same",
  "tightened": []
 },
 "extractNamedDecl": {
  "claim": "none: `default` is `none` here, the edited program is the same",
  "tightened": []
 },
 "extractReturnDeclRef": {
  "claim": "none: `default` is `none` here, the edited program is the same",
  "tightened": []
 },
 "getInnerIf": {
  "claim": "none: `default` is `none` here, the edited program is the same",
  "tightened": []
 },
 "extractReturn": {
  "claim": "none: `default` is `none` here, the edited program is the same",
  "tightened": []
 },
 "classInterface": {
  "claim": "none: `default` is `none` here, the edited program is the same",
  "tightened": []
 },
 "stringReplace": {
  "claim": "none: `default` is `none` here, the edited program is the same",
  "tightened": []
 },
 "valueDeclFromInc": {
  "claim": "none: `default` is `none` here, the edited program is the same",
  "tightened": []
 },
 "varDeclFromInit": {
  "claim": "none: `default` is `none` here, the edited program is the same",
  "tightened": []
 },
 "innerFor": {
  "claim": "none: `default` is `none` here, the edited program is the same",
  "tightened": []
 },
 "enforcedOn": {
  "claim": "none: `default` is `none` here, the edited program is the same",
  "tightened": []
 },
 "toInt32": {
  "claim": "none: the number that is added and the one that is taken away differ by 2^32, the edited program is the same",
  "tightened": []
 },
 "depthMax": {
  "claim": "none: the greater of two equal numbers is either of them, the edited program is the same",
  "tightened": []
 },
 "stmtDepth": {
  "claim": "none: the greater of two equal numbers is either of them, the edited program is the same",
  "tightened": []
 },
 "CompileResult": {
  "claim": "none: the edit changes what a field is when an example does not give it; no definition of the model leaves it out",
  "tightened": []
 },
 "shippedInfo": {
  "claim": "none: the line is for rules that are not shipped, of which the model has none",
  "tightened": []
 },
 "shellStatus": {
  "claim": "none: the status is asked for only when the code is not 0 (shellCall), and the two programs differ only there",
  "tightened": []
 },
 "RefConfig.read": {
  "claim": "none: both regions are erased from the list right away, so the program is the same",
  "tightened": []
 },
 "metricClass": {
  "claim": "none: the default is never used, since every rule with a limit is in the catalogue (C106_classes)",
  "tightened": []
 },
 "TestArgs": {
  "claim": "none: the default of `noNinja` is never used, every definition gives the field",
  "tightened": []
 },
 "DogArgs": {
  "claim": "none: the defaults were not used by any definition",
  "tightened": []
 },
 "findProgramByName": {
  "claim": "none: the only caller gives a name without a slash (installedPath), so the first branch is never taken",
  "tightened": []
 },
 "removeLibcxxHeaders": {
  "claim": "none: the script calls it on macOS only (trimLlvm), so the last branch is never taken",
  "tightened": []
 },
 "declSeen": {
  "claim": "none: without a body no rule looks at the last line",
  "tightened": []
 },
 "interfaceSeen": {
  "claim": "none: neither rule looks at the number of methods of an interface",
  "tightened": []
 },
 "exitType": {
  "claim": "none: of the type of a statement's exit the caller looks only at whether there is one, and the two programs agree on that",
  "tightened": []
 },
 "Disk.truncate": {
  "claim": "none: the text of the exception is not claimed; that one is thrown is",
  "tightened": []
 },
 "pyJoin": {
  "claim": "none: with the hypotheses about the home directory the first part is never empty and never ends in a slash",
  "tightened": []
 },
 "Disk.append": {
  "claim": "none: the text of the exception is not claimed; that one is thrown is",
  "tightened": []
 },
 "Disk.mkdirP": {
  "claim": "none: the text of the exception is not claimed; that one is thrown is",
  "tightened": []
 },
 "copyReporterTemplate": {
  "claim": "none: the text of the exception is not claimed; that one is thrown is",
  "tightened": []
 },
 "copyTemplate": {
  "claim": "none: the text of the exception is not claimed; that one is thrown is",
  "tightened": []
 }
}