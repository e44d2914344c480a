import Verif.Tests.Support

/-!
# Tests of the repository, abstract

Written by `tools/repotests.py`; see `Verif/Tests/Support.lean`.
-/

namespace Oclint

set_option linter.all false

/-! ## `oclint-rules/test/abstract/CUDASupportTest.cpp` -/

-- RunOnC
example : ((traversed (visitorApply ⟨false, false, true, false⟩ defaultSupportedLanguages defaultCUDAFunctionAttrs [⟨0, true, true, true, false⟩]))[0]? == some 0) = true := by decide +kernel

-- RunOnCXX
example : ((traversed (visitorApply ⟨false, true, false, false⟩ defaultSupportedLanguages defaultCUDAFunctionAttrs [⟨0, true, true, true, false⟩]))[0]? == some 0) = true := by decide +kernel

-- RunOnCXX11
example : ((traversed (visitorApply ⟨false, true, false, false⟩ defaultSupportedLanguages defaultCUDAFunctionAttrs [⟨0, true, true, true, false⟩]))[0]? == some 0) = true := by decide +kernel

-- RunOnCUDA
example : ((traversed (visitorApply ⟨false, true, false, true⟩ defaultSupportedLanguages defaultCUDAFunctionAttrs [⟨0, true, true, true, true⟩, ⟨1, true, true, true, false⟩]))[0]? == some 1) = true := by decide +kernel

-- RunOnCHostFunctions
example : ((traversed (visitorApply ⟨false, false, true, false⟩ defaultSupportedLanguages (CUDA_HOST) [⟨0, true, true, true, false⟩]))[0]? == some 0) = true := by decide +kernel

-- RunOnCXXHostFunctions
example : ((traversed (visitorApply ⟨false, true, false, false⟩ defaultSupportedLanguages (CUDA_HOST) [⟨0, true, true, true, false⟩]))[0]? == some 0) = true := by decide +kernel

-- RunOnCUDAHostFunctions
example : ((traversed (visitorApply ⟨false, true, false, true⟩ defaultSupportedLanguages (CUDA_HOST) [⟨0, true, true, true, true⟩])).isEmpty) = true := by decide +kernel

-- RunOnCUDAHostFunctions
example : ((traversed (visitorApply ⟨false, true, false, true⟩ defaultSupportedLanguages (CUDA_HOST) [⟨0, true, true, true, false⟩]))[0]? == some 0) = true := by decide +kernel

-- RunOnCUDAHostFunctions
example : ((traversed (visitorApply ⟨false, true, false, true⟩ defaultSupportedLanguages (CUDA_HOST) [⟨0, true, true, true, true⟩, ⟨1, true, true, true, false⟩]))[0]? == some 1) = true := by decide +kernel

-- RunOnCGlobalFunctions
example : ((traversed (visitorApply ⟨false, false, true, false⟩ defaultSupportedLanguages (CUDA_GLOBAL) [⟨0, true, true, true, false⟩])).isEmpty) = true := by decide +kernel

-- RunOnCXXGlobalFunctions
example : ((traversed (visitorApply ⟨false, true, false, false⟩ defaultSupportedLanguages (CUDA_GLOBAL) [⟨0, true, true, true, false⟩])).isEmpty) = true := by decide +kernel

-- RunOnCUDAGlobalFunctions
example : ((traversed (visitorApply ⟨false, true, false, true⟩ defaultSupportedLanguages (CUDA_GLOBAL) [⟨0, true, true, true, true⟩]))[0]? == some 0) = true := by decide +kernel

-- RunOnCUDAGlobalFunctions
example : ((traversed (visitorApply ⟨false, true, false, true⟩ defaultSupportedLanguages (CUDA_GLOBAL) [⟨0, true, true, true, false⟩])).isEmpty) = true := by decide +kernel

-- RunOnCUDAGlobalFunctions
example : ((traversed (visitorApply ⟨false, true, false, true⟩ defaultSupportedLanguages (CUDA_GLOBAL) [⟨0, true, true, true, true⟩, ⟨1, true, true, true, false⟩]))[0]? == some 0) = true := by decide +kernel

-- RunOnCBoth
example : ((traversed (visitorApply ⟨false, false, true, false⟩ defaultSupportedLanguages (CUDA_HOST ||| CUDA_GLOBAL) [⟨0, true, true, true, false⟩]))[0]? == some 0) = true := by decide +kernel

-- RunOnCXXBoth
example : ((traversed (visitorApply ⟨false, true, false, false⟩ defaultSupportedLanguages (CUDA_HOST ||| CUDA_GLOBAL) [⟨0, true, true, true, false⟩]))[0]? == some 0) = true := by decide +kernel

-- RunOnCUDABoth
example : ((traversed (visitorApply ⟨false, true, false, true⟩ defaultSupportedLanguages (CUDA_HOST ||| CUDA_GLOBAL) [⟨0, true, true, true, true⟩]))[0]? == some 0) = true := by decide +kernel

-- RunOnCUDABoth
example : ((traversed (visitorApply ⟨false, true, false, true⟩ defaultSupportedLanguages (CUDA_HOST ||| CUDA_GLOBAL) [⟨0, true, true, true, false⟩]))[0]? == some 0) = true := by decide +kernel

-- RunOnCUDABoth
example : ((traversed (visitorApply ⟨false, true, false, true⟩ defaultSupportedLanguages (CUDA_HOST ||| CUDA_GLOBAL) [⟨0, true, true, true, true⟩, ⟨1, true, true, true, false⟩]))[0]? == some 0) = true := by decide +kernel

-- RunOnCUDABoth
example : ((traversed (visitorApply ⟨false, true, false, true⟩ defaultSupportedLanguages (CUDA_HOST ||| CUDA_GLOBAL) [⟨0, true, true, true, true⟩, ⟨1, true, true, true, false⟩]))[1]? == some 1) = true := by decide +kernel

/-! ## `oclint-rules/test/abstract/LanguageSelectionTest.cpp` -/

-- RunOnC
example : ((traversed (visitorApply ⟨false, false, true, false⟩ defaultSupportedLanguages defaultCUDAFunctionAttrs [⟨0, true, true, true, false⟩]))[0]? == some 0) = true := by decide +kernel

-- RunOnCXX
example : ((traversed (visitorApply ⟨false, true, false, false⟩ defaultSupportedLanguages defaultCUDAFunctionAttrs [⟨0, true, true, true, false⟩]))[0]? == some 0) = true := by decide +kernel

-- RunOnCXX11
example : ((traversed (visitorApply ⟨false, true, false, false⟩ defaultSupportedLanguages defaultCUDAFunctionAttrs [⟨0, true, true, true, false⟩]))[0]? == some 0) = true := by decide +kernel

-- RunOnObjC
example : ((traversed (visitorApply ⟨true, false, true, false⟩ defaultSupportedLanguages defaultCUDAFunctionAttrs [⟨0, true, true, true, false⟩]))[0]? == some 0) = true := by decide +kernel

-- RunOnC
example : ((traversed (visitorApply ⟨false, false, true, false⟩ (LANG_C) defaultCUDAFunctionAttrs [⟨0, true, true, true, false⟩]))[0]? == some 0) = true := by decide +kernel

-- RunOnCXX
example : ((traversed (visitorApply ⟨false, true, false, false⟩ (LANG_C) defaultCUDAFunctionAttrs [⟨0, true, true, true, false⟩])).isEmpty) = true := by decide +kernel

-- RunOnCXX11
example : ((traversed (visitorApply ⟨false, true, false, false⟩ (LANG_C) defaultCUDAFunctionAttrs [⟨0, true, true, true, false⟩])).isEmpty) = true := by decide +kernel

-- RunOnObjC
example : ((traversed (visitorApply ⟨true, false, true, false⟩ (LANG_C) defaultCUDAFunctionAttrs [⟨0, true, true, true, false⟩])).isEmpty) = true := by decide +kernel

-- RunOnC
example : ((traversed (visitorApply ⟨false, false, true, false⟩ (LANG_CXX) defaultCUDAFunctionAttrs [⟨0, true, true, true, false⟩])).isEmpty) = true := by decide +kernel

-- RunOnCXX
example : ((traversed (visitorApply ⟨false, true, false, false⟩ (LANG_CXX) defaultCUDAFunctionAttrs [⟨0, true, true, true, false⟩]))[0]? == some 0) = true := by decide +kernel

-- RunOnCXX11
example : ((traversed (visitorApply ⟨false, true, false, false⟩ (LANG_CXX) defaultCUDAFunctionAttrs [⟨0, true, true, true, false⟩]))[0]? == some 0) = true := by decide +kernel

-- RunOnObjC
example : ((traversed (visitorApply ⟨true, false, true, false⟩ (LANG_CXX) defaultCUDAFunctionAttrs [⟨0, true, true, true, false⟩])).isEmpty) = true := by decide +kernel

-- RunOnC
example : ((traversed (visitorApply ⟨false, false, true, false⟩ (LANG_OBJC) defaultCUDAFunctionAttrs [⟨0, true, true, true, false⟩])).isEmpty) = true := by decide +kernel

-- RunOnCXX
example : ((traversed (visitorApply ⟨false, true, false, false⟩ (LANG_OBJC) defaultCUDAFunctionAttrs [⟨0, true, true, true, false⟩])).isEmpty) = true := by decide +kernel

-- RunOnCXX11
example : ((traversed (visitorApply ⟨false, true, false, false⟩ (LANG_OBJC) defaultCUDAFunctionAttrs [⟨0, true, true, true, false⟩])).isEmpty) = true := by decide +kernel

-- RunOnObjC
example : ((traversed (visitorApply ⟨true, false, true, false⟩ (LANG_OBJC) defaultCUDAFunctionAttrs [⟨0, true, true, true, false⟩]))[0]? == some 0) = true := by decide +kernel

-- RunOnC
example : ((traversed (visitorApply ⟨false, false, true, false⟩ (LANG_C ||| LANG_OBJC) defaultCUDAFunctionAttrs [⟨0, true, true, true, false⟩]))[0]? == some 0) = true := by decide +kernel

-- RunOnCXX
example : ((traversed (visitorApply ⟨false, true, false, false⟩ (LANG_C ||| LANG_OBJC) defaultCUDAFunctionAttrs [⟨0, true, true, true, false⟩])).isEmpty) = true := by decide +kernel

-- RunOnCXX11
example : ((traversed (visitorApply ⟨false, true, false, false⟩ (LANG_C ||| LANG_OBJC) defaultCUDAFunctionAttrs [⟨0, true, true, true, false⟩])).isEmpty) = true := by decide +kernel

-- RunOnObjC
example : ((traversed (visitorApply ⟨true, false, true, false⟩ (LANG_C ||| LANG_OBJC) defaultCUDAFunctionAttrs [⟨0, true, true, true, false⟩]))[0]? == some 0) = true := by decide +kernel

end Oclint
