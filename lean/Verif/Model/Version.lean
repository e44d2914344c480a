import Verif.Model.ReportRun
import Verif.Model.Install
import Verif.Model.Scaffold

/-!
# Versions

The version that the program states is a constant of `oclint-core`, the version as which it is built
and bundled is in a build file and in a script.
-/

namespace Oclint

/-- `main.cpp:144-149`, `oclintVersionPrinter`; `date` and `time` are `__DATE__` and `__TIME__`. -/
def oclintVersionPrinter (date time : Str) : Str :=
  "OCLint (".toList ++ homepageText ++ "):\n".toList
    ++ "  OCLint version ".toList ++ versionText ++ ".\n".toList
    ++ "  Built ".toList ++ date ++ " (".toList ++ time ++ ").\n".toList

/-- `oclint-core/lib/Constants.cpp:15-18`. -/
def docpageText : Str := "https://docs.oclint.org/en/stable".toList

/-- `main_docgen.cpp:76-81`, `oclintDocGenVersionPrinter`. -/
def docgenVersionPrinter (date time : Str) : Str :=
  "OCLint DocGen (".toList ++ docpageText ++ "):\n".toList
    ++ "  OCLint DocGen version ".toList ++ versionText ++ ".\n".toList
    ++ "  Built ".toList ++ date ++ " (".toList ++ time ++ ").\n".toList

/-- `oclint-core/cmake/OCLintConfig.cmake:39`, `OCLINT_VERSION_RELEASE`. -/
def versionRelease : Str := "26.02".toList

/-- `oclint-driver/CMakeLists.txt:22`: the file that is built. -/
def driverExecutable : Str := "oclint-".toList ++ versionRelease

/-- `bundle:41`, the link: what it is called and what it points to. -/
def bundleLink (version : Str) : Str × Str := ("oclint".toList, "oclint-".toList ++ version)

/-- `bundle:42-43`, the second link. -/
def bundleDevLink (version devVersion : Str) : Str × Str :=
  ("oclint-".toList ++ devVersion, "oclint-".toList ++ version)

/-- `version.py:23-24`, `oclint_dev_version`; `commit` is `dev_version()` (`version.py:8-18`). -/
def oclintDevVersion (commit : Str) : Str := oclintVersion ++ ".dev.".toList ++ commit

/-- `bundle:37-43`, `install_binary`: the directory of the program is copied, then links are made;
pairs of a name and what it points to. -/
def bundleLinks (commit : Str) (isRelease : Bool) : List (Str × Str) :=
  bundleLink oclintVersion ::
    (if isRelease then [] else [bundleDevLink oclintVersion (oclintDevVersion commit)])

end Oclint
