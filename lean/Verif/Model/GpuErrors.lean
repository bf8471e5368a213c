import Verif.Model.Outcome

/-!
# Failing calls of the GPU libraries (`_GPUUtils.hip`, `_GPUUtils.hpp`, `PyGpuExceptions.hip`)

Every call of HIP, hipBLAS and hipSOLVER is wrapped in `hip_catch`, `hipblas_catch` or
`hipsolver_catch`, which turn the status it returned into an exception; the Python module
`gpu_except` gives these exceptions Python classes.

The numbers of the enumerators are in the headers of ROCm, not in /repo: a function
`code : GpuStatus → Int` that is arbitrary here.  The texts of `hipGetErrorString` and
`hipblasStatusToString` are likewise a function of the number.
-/

namespace Einsums.Model

/-- The enumerators for which src/include/einsums/_GPUUtils.hpp 116–193, 276–287 and 380–391
declare an exception type: those of `hipError_t`, `hipblasStatus_t` and `hipsolverStatus_t`. -/
inductive GpuStatus where
  | hipSuccess | hipErrorInvalidValue | hipErrorOutOfMemory | hipErrorMemoryAllocation
  | hipErrorNotInitialized | hipErrorInitializationError | hipErrorDeinitialized
  | hipErrorProfilerDisabled | hipErrorProfilerNotInitialized | hipErrorProfilerAlreadyStarted
  | hipErrorProfilerAlreadyStopped | hipErrorInvalidConfiguration | hipErrorInvalidPitchValue
  | hipErrorInvalidSymbol | hipErrorInvalidDevicePointer | hipErrorInvalidMemcpyDirection
  | hipErrorInsufficientDriver | hipErrorMissingConfiguration | hipErrorPriorLaunchFailure
  | hipErrorInvalidDeviceFunction | hipErrorNoDevice | hipErrorInvalidDevice
  | hipErrorInvalidImage | hipErrorInvalidContext | hipErrorContextAlreadyCurrent
  | hipErrorMapFailed | hipErrorMapBufferObjectFailed | hipErrorUnmapFailed
  | hipErrorArrayIsMapped | hipErrorAlreadyMapped | hipErrorNoBinaryForGpu
  | hipErrorAlreadyAcquired | hipErrorNotMapped | hipErrorNotMappedAsArray
  | hipErrorNotMappedAsPointer | hipErrorECCNotCorrectable | hipErrorUnsupportedLimit
  | hipErrorContextAlreadyInUse | hipErrorPeerAccessUnsupported | hipErrorInvalidKernelFile
  | hipErrorInvalidGraphicsContext | hipErrorInvalidSource | hipErrorFileNotFound
  | hipErrorSharedObjectSymbolNotFound | hipErrorSharedObjectInitFailed
  | hipErrorOperatingSystem | hipErrorInvalidHandle | hipErrorInvalidResourceHandle
  | hipErrorIllegalState | hipErrorNotFound | hipErrorNotReady | hipErrorIllegalAddress
  | hipErrorLaunchOutOfResources | hipErrorLaunchTimeOut | hipErrorPeerAccessAlreadyEnabled
  | hipErrorPeerAccessNotEnabled | hipErrorSetOnActiveProcess | hipErrorContextIsDestroyed
  | hipErrorAssert | hipErrorHostMemoryAlreadyRegistered | hipErrorHostMemoryNotRegistered
  | hipErrorLaunchFailure | hipErrorCooperativeLaunchTooLarge | hipErrorNotSupported
  | hipErrorStreamCaptureUnsupported | hipErrorStreamCaptureInvalidated
  | hipErrorStreamCaptureMerge | hipErrorStreamCaptureUnmatched | hipErrorStreamCaptureUnjoined
  | hipErrorStreamCaptureIsolation | hipErrorStreamCaptureImplicit | hipErrorCapturedEvent
  | hipErrorStreamCaptureWrongThread | hipErrorGraphExecUpdateFailure | hipErrorUnknown
  | hipErrorRuntimeMemory | hipErrorRuntimeOther | hipErrorTbd | HIPBLAS_STATUS_SUCCESS
  | HIPBLAS_STATUS_NOT_INITIALIZED | HIPBLAS_STATUS_ALLOC_FAILED | HIPBLAS_STATUS_INVALID_VALUE
  | HIPBLAS_STATUS_MAPPING_ERROR | HIPBLAS_STATUS_EXECUTION_FAILED
  | HIPBLAS_STATUS_INTERNAL_ERROR | HIPBLAS_STATUS_NOT_SUPPORTED | HIPBLAS_STATUS_ARCH_MISMATCH
  | HIPBLAS_STATUS_HANDLE_IS_NULLPTR | HIPBLAS_STATUS_INVALID_ENUM | HIPBLAS_STATUS_UNKNOWN
  | HIPSOLVER_STATUS_SUCCESS | HIPSOLVER_STATUS_NOT_INITIALIZED | HIPSOLVER_STATUS_ALLOC_FAILED
  | HIPSOLVER_STATUS_INVALID_VALUE | HIPSOLVER_STATUS_MAPPING_ERROR
  | HIPSOLVER_STATUS_EXECUTION_FAILED | HIPSOLVER_STATUS_INTERNAL_ERROR
  | HIPSOLVER_STATUS_NOT_SUPPORTED | HIPSOLVER_STATUS_ARCH_MISMATCH
  | HIPSOLVER_STATUS_HANDLE_IS_NULLPTR | HIPSOLVER_STATUS_INVALID_ENUM
  | HIPSOLVER_STATUS_UNKNOWN
  deriving DecidableEq

/-- The names of the exception types, src/include/einsums/_GPUUtils.hpp 116–193, 276–287 and
380–391. -/
inductive GpuExc where
  | Success | ErrorInvalidValue | ErrorOutOfMemory | ErrorMemoryAllocation
  | ErrorNotInitialized | ErrorInitializationError | ErrorDeinitialized | ErrorProfilerDisabled
  | ErrorProfilerNotInitialized | ErrorProfilerAlreadyStarted | ErrorProfilerAlreadyStopped
  | ErrorInvalidConfiguration | ErrorInvalidPitchValue | ErrorInvalidSymbol
  | ErrorInvalidDevicePointer | ErrorInvalidMemcpyDirection | ErrorInsufficientDriver
  | ErrorMissingConfiguration | ErrorPriorLaunchFailure | ErrorInvalidDeviceFunction
  | ErrorNoDevice | ErrorInvalidDevice | ErrorInvalidImage | ErrorInvalidContext
  | ErrorContextAlreadyCurrent | ErrorMapFailed | ErrorMapBufferObjectFailed | ErrorUnmapFailed
  | ErrorArrayIsMapped | ErrorAlreadyMapped | ErrorNoBinaryForGpu | ErrorAlreadyAcquired
  | ErrorNotMapped | ErrorNotMappedAsArray | ErrorNotMappedAsPointer | ErrorECCNotCorrectable
  | ErrorUnsupportedLimit | ErrorContextAlreadyInUse | ErrorPeerAccessUnsupported
  | ErrorInvalidKernelFile | ErrorInvalidGraphicsContext | ErrorInvalidSource
  | ErrorFileNotFound | ErrorSharedObjectSymbolNotFound | ErrorSharedObjectInitFailed
  | ErrorOperatingSystem | ErrorInvalidHandle | ErrorInvalidResourceHandle | ErrorIllegalState
  | ErrorNotFound | ErrorNotReady | ErrorIllegalAddress | ErrorLaunchOutOfResources
  | ErrorLaunchTimeOut | ErrorPeerAccessAlreadyEnabled | ErrorPeerAccessNotEnabled
  | ErrorSetOnActiveProcess | ErrorContextIsDestroyed | ErrorAssert
  | ErrorHostMemoryAlreadyRegistered | ErrorHostMemoryNotRegistered | ErrorLaunchFailure
  | ErrorCooperativeLaunchTooLarge | ErrorNotSupported | ErrorStreamCaptureUnsupported
  | ErrorStreamCaptureInvalidated | ErrorStreamCaptureMerge | ErrorStreamCaptureUnmatched
  | ErrorStreamCaptureUnjoined | ErrorStreamCaptureIsolation | ErrorStreamCaptureImplicit
  | ErrorCapturedEvent | ErrorStreamCaptureWrongThread | ErrorGraphExecUpdateFailure
  | ErrorUnknown | ErrorRuntimeMemory | ErrorRuntimeOther | ErrorTbd | blasSuccess
  | blasNotInitialized | blasAllocFailed | blasInvalidValue | blasMappingError
  | blasExecutionFailed | blasInternalError | blasNotSupported | blasArchMismatch
  | blasHandleIsNullptr | blasInvalidEnum | blasUnknown | solverSuccess | solverNotInitialized
  | solverAllocFailed | solverInvalidValue | solverMappingError | solverExecutionFailed
  | solverInternalError | solverFuncNotSupported | solverArchMismatch | solverHandleIsNullptr
  | solverInvalidEnum | solverUnknown
  deriving DecidableEq

/-- The three libraries; their exceptions are instances of three different templates,
src/include/einsums/_GPUUtils.hpp 46, 204 and 311. -/
inductive GpuLibrary where
  | hip | blas | solver
  deriving DecidableEq

/-- The enumerator an exception type is declared with, src/include/einsums/_GPUUtils.hpp 116–193,
276–287 and 380–391. -/
def GpuExc.status : GpuExc → GpuStatus
  | .Success => .hipSuccess
  | .ErrorInvalidValue => .hipErrorInvalidValue
  | .ErrorOutOfMemory => .hipErrorOutOfMemory
  | .ErrorMemoryAllocation => .hipErrorMemoryAllocation
  | .ErrorNotInitialized => .hipErrorNotInitialized
  | .ErrorInitializationError => .hipErrorInitializationError
  | .ErrorDeinitialized => .hipErrorDeinitialized
  | .ErrorProfilerDisabled => .hipErrorProfilerDisabled
  | .ErrorProfilerNotInitialized => .hipErrorProfilerNotInitialized
  | .ErrorProfilerAlreadyStarted => .hipErrorProfilerAlreadyStarted
  | .ErrorProfilerAlreadyStopped => .hipErrorProfilerAlreadyStopped
  | .ErrorInvalidConfiguration => .hipErrorInvalidConfiguration
  | .ErrorInvalidPitchValue => .hipErrorInvalidPitchValue
  | .ErrorInvalidSymbol => .hipErrorInvalidSymbol
  | .ErrorInvalidDevicePointer => .hipErrorInvalidDevicePointer
  | .ErrorInvalidMemcpyDirection => .hipErrorInvalidMemcpyDirection
  | .ErrorInsufficientDriver => .hipErrorInsufficientDriver
  | .ErrorMissingConfiguration => .hipErrorMissingConfiguration
  | .ErrorPriorLaunchFailure => .hipErrorPriorLaunchFailure
  | .ErrorInvalidDeviceFunction => .hipErrorInvalidDeviceFunction
  | .ErrorNoDevice => .hipErrorNoDevice
  | .ErrorInvalidDevice => .hipErrorInvalidDevice
  | .ErrorInvalidImage => .hipErrorInvalidImage
  | .ErrorInvalidContext => .hipErrorInvalidContext
  | .ErrorContextAlreadyCurrent => .hipErrorContextAlreadyCurrent
  | .ErrorMapFailed => .hipErrorMapFailed
  | .ErrorMapBufferObjectFailed => .hipErrorMapBufferObjectFailed
  | .ErrorUnmapFailed => .hipErrorUnmapFailed
  | .ErrorArrayIsMapped => .hipErrorArrayIsMapped
  | .ErrorAlreadyMapped => .hipErrorAlreadyMapped
  | .ErrorNoBinaryForGpu => .hipErrorNoBinaryForGpu
  | .ErrorAlreadyAcquired => .hipErrorAlreadyAcquired
  | .ErrorNotMapped => .hipErrorNotMapped
  | .ErrorNotMappedAsArray => .hipErrorNotMappedAsArray
  | .ErrorNotMappedAsPointer => .hipErrorNotMappedAsPointer
  | .ErrorECCNotCorrectable => .hipErrorECCNotCorrectable
  | .ErrorUnsupportedLimit => .hipErrorUnsupportedLimit
  | .ErrorContextAlreadyInUse => .hipErrorContextAlreadyInUse
  | .ErrorPeerAccessUnsupported => .hipErrorPeerAccessUnsupported
  | .ErrorInvalidKernelFile => .hipErrorInvalidKernelFile
  | .ErrorInvalidGraphicsContext => .hipErrorInvalidGraphicsContext
  | .ErrorInvalidSource => .hipErrorInvalidSource
  | .ErrorFileNotFound => .hipErrorFileNotFound
  | .ErrorSharedObjectSymbolNotFound => .hipErrorSharedObjectSymbolNotFound
  | .ErrorSharedObjectInitFailed => .hipErrorSharedObjectInitFailed
  | .ErrorOperatingSystem => .hipErrorOperatingSystem
  | .ErrorInvalidHandle => .hipErrorInvalidHandle
  | .ErrorInvalidResourceHandle => .hipErrorInvalidResourceHandle
  | .ErrorIllegalState => .hipErrorIllegalState
  | .ErrorNotFound => .hipErrorNotFound
  | .ErrorNotReady => .hipErrorNotReady
  | .ErrorIllegalAddress => .hipErrorIllegalAddress
  | .ErrorLaunchOutOfResources => .hipErrorLaunchOutOfResources
  | .ErrorLaunchTimeOut => .hipErrorLaunchTimeOut
  | .ErrorPeerAccessAlreadyEnabled => .hipErrorPeerAccessAlreadyEnabled
  | .ErrorPeerAccessNotEnabled => .hipErrorPeerAccessNotEnabled
  | .ErrorSetOnActiveProcess => .hipErrorSetOnActiveProcess
  | .ErrorContextIsDestroyed => .hipErrorContextIsDestroyed
  | .ErrorAssert => .hipErrorAssert
  | .ErrorHostMemoryAlreadyRegistered => .hipErrorHostMemoryAlreadyRegistered
  | .ErrorHostMemoryNotRegistered => .hipErrorHostMemoryNotRegistered
  | .ErrorLaunchFailure => .hipErrorLaunchFailure
  | .ErrorCooperativeLaunchTooLarge => .hipErrorCooperativeLaunchTooLarge
  | .ErrorNotSupported => .hipErrorNotSupported
  | .ErrorStreamCaptureUnsupported => .hipErrorStreamCaptureUnsupported
  | .ErrorStreamCaptureInvalidated => .hipErrorStreamCaptureInvalidated
  | .ErrorStreamCaptureMerge => .hipErrorStreamCaptureMerge
  | .ErrorStreamCaptureUnmatched => .hipErrorStreamCaptureUnmatched
  | .ErrorStreamCaptureUnjoined => .hipErrorStreamCaptureUnjoined
  | .ErrorStreamCaptureIsolation => .hipErrorStreamCaptureIsolation
  | .ErrorStreamCaptureImplicit => .hipErrorStreamCaptureImplicit
  | .ErrorCapturedEvent => .hipErrorCapturedEvent
  | .ErrorStreamCaptureWrongThread => .hipErrorStreamCaptureWrongThread
  | .ErrorGraphExecUpdateFailure => .hipErrorGraphExecUpdateFailure
  | .ErrorUnknown => .hipErrorUnknown
  | .ErrorRuntimeMemory => .hipErrorRuntimeMemory
  | .ErrorRuntimeOther => .hipErrorRuntimeOther
  | .ErrorTbd => .hipErrorTbd
  | .blasSuccess => .HIPBLAS_STATUS_SUCCESS
  | .blasNotInitialized => .HIPBLAS_STATUS_NOT_INITIALIZED
  | .blasAllocFailed => .HIPBLAS_STATUS_ALLOC_FAILED
  | .blasInvalidValue => .HIPBLAS_STATUS_INVALID_VALUE
  | .blasMappingError => .HIPBLAS_STATUS_MAPPING_ERROR
  | .blasExecutionFailed => .HIPBLAS_STATUS_EXECUTION_FAILED
  | .blasInternalError => .HIPBLAS_STATUS_INTERNAL_ERROR
  | .blasNotSupported => .HIPBLAS_STATUS_NOT_SUPPORTED
  | .blasArchMismatch => .HIPBLAS_STATUS_ARCH_MISMATCH
  | .blasHandleIsNullptr => .HIPBLAS_STATUS_HANDLE_IS_NULLPTR
  | .blasInvalidEnum => .HIPBLAS_STATUS_INVALID_ENUM
  | .blasUnknown => .HIPBLAS_STATUS_UNKNOWN
  | .solverSuccess => .HIPSOLVER_STATUS_SUCCESS
  | .solverNotInitialized => .HIPSOLVER_STATUS_NOT_INITIALIZED
  | .solverAllocFailed => .HIPSOLVER_STATUS_ALLOC_FAILED
  | .solverInvalidValue => .HIPSOLVER_STATUS_INVALID_VALUE
  | .solverMappingError => .HIPSOLVER_STATUS_MAPPING_ERROR
  | .solverExecutionFailed => .HIPSOLVER_STATUS_EXECUTION_FAILED
  | .solverInternalError => .HIPSOLVER_STATUS_INTERNAL_ERROR
  | .solverFuncNotSupported => .HIPSOLVER_STATUS_NOT_SUPPORTED
  | .solverArchMismatch => .HIPSOLVER_STATUS_ARCH_MISMATCH
  | .solverHandleIsNullptr => .HIPSOLVER_STATUS_HANDLE_IS_NULLPTR
  | .solverInvalidEnum => .HIPSOLVER_STATUS_INVALID_ENUM
  | .solverUnknown => .HIPSOLVER_STATUS_UNKNOWN

/-- The cases of the switch after `hipSuccess`, src/_GPUUtils.hip 40–258. -/
def hipSwitch : List (GpuStatus × GpuExc) :=
  [(.hipErrorInvalidValue, .ErrorInvalidValue), (.hipErrorOutOfMemory, .ErrorOutOfMemory),
   (.hipErrorNotInitialized, .ErrorNotInitialized),
   (.hipErrorDeinitialized, .ErrorDeinitialized),
   (.hipErrorProfilerDisabled, .ErrorProfilerDisabled),
   (.hipErrorProfilerNotInitialized, .ErrorProfilerNotInitialized),
   (.hipErrorProfilerAlreadyStarted, .ErrorProfilerAlreadyStarted),
   (.hipErrorProfilerAlreadyStopped, .ErrorProfilerAlreadyStopped),
   (.hipErrorInvalidConfiguration, .ErrorInvalidConfiguration),
   (.hipErrorInvalidPitchValue, .ErrorInvalidPitchValue),
   (.hipErrorInvalidSymbol, .ErrorInvalidSymbol),
   (.hipErrorInvalidDevicePointer, .ErrorInvalidDevicePointer),
   (.hipErrorInvalidMemcpyDirection, .ErrorInvalidMemcpyDirection),
   (.hipErrorInsufficientDriver, .ErrorInsufficientDriver),
   (.hipErrorMissingConfiguration, .ErrorMissingConfiguration),
   (.hipErrorPriorLaunchFailure, .ErrorPriorLaunchFailure),
   (.hipErrorInvalidDeviceFunction, .ErrorInvalidDeviceFunction),
   (.hipErrorNoDevice, .ErrorNoDevice), (.hipErrorInvalidDevice, .ErrorInvalidDevice),
   (.hipErrorInvalidImage, .ErrorInvalidImage),
   (.hipErrorInvalidContext, .ErrorInvalidContext),
   (.hipErrorContextAlreadyCurrent, .ErrorContextAlreadyCurrent),
   (.hipErrorMapFailed, .ErrorMapFailed), (.hipErrorUnmapFailed, .ErrorUnmapFailed),
   (.hipErrorArrayIsMapped, .ErrorArrayIsMapped),
   (.hipErrorAlreadyMapped, .ErrorAlreadyMapped),
   (.hipErrorNoBinaryForGpu, .ErrorNoBinaryForGpu),
   (.hipErrorAlreadyAcquired, .ErrorAlreadyAcquired), (.hipErrorNotMapped, .ErrorNotMapped),
   (.hipErrorNotMappedAsArray, .ErrorNotMappedAsArray),
   (.hipErrorNotMappedAsPointer, .ErrorNotMappedAsPointer),
   (.hipErrorECCNotCorrectable, .ErrorECCNotCorrectable),
   (.hipErrorUnsupportedLimit, .ErrorUnsupportedLimit),
   (.hipErrorContextAlreadyInUse, .ErrorContextAlreadyInUse),
   (.hipErrorPeerAccessUnsupported, .ErrorPeerAccessUnsupported),
   (.hipErrorInvalidKernelFile, .ErrorInvalidKernelFile),
   (.hipErrorInvalidGraphicsContext, .ErrorInvalidGraphicsContext),
   (.hipErrorInvalidSource, .ErrorInvalidSource), (.hipErrorFileNotFound, .ErrorFileNotFound),
   (.hipErrorSharedObjectSymbolNotFound, .ErrorSharedObjectSymbolNotFound),
   (.hipErrorSharedObjectInitFailed, .ErrorSharedObjectInitFailed),
   (.hipErrorOperatingSystem, .ErrorOperatingSystem),
   (.hipErrorInvalidHandle, .ErrorInvalidHandle), (.hipErrorIllegalState, .ErrorIllegalState),
   (.hipErrorNotFound, .ErrorNotFound), (.hipErrorNotReady, .ErrorNotReady),
   (.hipErrorIllegalAddress, .ErrorIllegalAddress),
   (.hipErrorLaunchOutOfResources, .ErrorLaunchOutOfResources),
   (.hipErrorLaunchTimeOut, .ErrorLaunchTimeOut),
   (.hipErrorPeerAccessAlreadyEnabled, .ErrorPeerAccessAlreadyEnabled),
   (.hipErrorPeerAccessNotEnabled, .ErrorPeerAccessNotEnabled),
   (.hipErrorSetOnActiveProcess, .ErrorSetOnActiveProcess),
   (.hipErrorContextIsDestroyed, .ErrorContextIsDestroyed), (.hipErrorAssert, .ErrorAssert),
   (.hipErrorHostMemoryAlreadyRegistered, .ErrorHostMemoryAlreadyRegistered),
   (.hipErrorHostMemoryNotRegistered, .ErrorHostMemoryNotRegistered),
   (.hipErrorLaunchFailure, .ErrorLaunchFailure),
   (.hipErrorCooperativeLaunchTooLarge, .ErrorCooperativeLaunchTooLarge),
   (.hipErrorNotSupported, .ErrorNotSupported),
   (.hipErrorStreamCaptureUnsupported, .ErrorStreamCaptureUnsupported),
   (.hipErrorStreamCaptureInvalidated, .ErrorStreamCaptureInvalidated),
   (.hipErrorStreamCaptureMerge, .ErrorStreamCaptureMerge),
   (.hipErrorStreamCaptureUnmatched, .ErrorStreamCaptureUnmatched),
   (.hipErrorStreamCaptureUnjoined, .ErrorStreamCaptureUnjoined),
   (.hipErrorStreamCaptureIsolation, .ErrorStreamCaptureIsolation),
   (.hipErrorStreamCaptureImplicit, .ErrorStreamCaptureImplicit),
   (.hipErrorCapturedEvent, .ErrorCapturedEvent),
   (.hipErrorStreamCaptureWrongThread, .ErrorStreamCaptureWrongThread),
   (.hipErrorGraphExecUpdateFailure, .ErrorGraphExecUpdateFailure),
   (.hipErrorUnknown, .ErrorUnknown), (.hipErrorRuntimeMemory, .ErrorRuntimeMemory),
   (.hipErrorRuntimeOther, .ErrorRuntimeOther), (.hipErrorTbd, .ErrorTbd)]

/-- The cases of the switch after `HIPBLAS_STATUS_SUCCESS`, src/_GPUUtils.hip 292–321. -/
def blasSwitch : List (GpuStatus × GpuExc) :=
  [(.HIPBLAS_STATUS_NOT_INITIALIZED, .blasNotInitialized),
   (.HIPBLAS_STATUS_ALLOC_FAILED, .blasAllocFailed),
   (.HIPBLAS_STATUS_INVALID_VALUE, .blasInvalidValue),
   (.HIPBLAS_STATUS_MAPPING_ERROR, .blasMappingError),
   (.HIPBLAS_STATUS_EXECUTION_FAILED, .blasExecutionFailed),
   (.HIPBLAS_STATUS_INTERNAL_ERROR, .blasInternalError),
   (.HIPBLAS_STATUS_NOT_SUPPORTED, .blasNotSupported),
   (.HIPBLAS_STATUS_ARCH_MISMATCH, .blasArchMismatch),
   (.HIPBLAS_STATUS_HANDLE_IS_NULLPTR, .blasHandleIsNullptr),
   (.HIPBLAS_STATUS_INVALID_ENUM, .blasInvalidEnum)]

/-- The cases of the switch after `HIPSOLVER_STATUS_SUCCESS`, src/_GPUUtils.hip 366–398. -/
def solverSwitch : List (GpuStatus × GpuExc) :=
  [(.HIPSOLVER_STATUS_NOT_INITIALIZED, .solverNotInitialized),
   (.HIPSOLVER_STATUS_ALLOC_FAILED, .solverAllocFailed),
   (.HIPSOLVER_STATUS_INVALID_VALUE, .solverInvalidValue),
   (.HIPSOLVER_STATUS_MAPPING_ERROR, .solverMappingError),
   (.HIPSOLVER_STATUS_EXECUTION_FAILED, .solverExecutionFailed),
   (.HIPSOLVER_STATUS_INTERNAL_ERROR, .solverInternalError),
   (.HIPSOLVER_STATUS_NOT_SUPPORTED, .solverFuncNotSupported),
   (.HIPSOLVER_STATUS_ARCH_MISMATCH, .solverArchMismatch),
   (.HIPSOLVER_STATUS_HANDLE_IS_NULLPTR, .solverHandleIsNullptr),
   (.HIPSOLVER_STATUS_INVALID_ENUM, .solverInvalidEnum),
   (.HIPSOLVER_STATUS_UNKNOWN, .solverUnknown)]

/-- What is thrown: an instance of the template of a library for a number, with the text that
`what()` returns (src/include/einsums/_GPUUtils.hpp 46–69, 204–228 and 311–333).  Two exception
names declared for enumerators with one number are the same type. -/
structure GpuThrown where
  lib : GpuLibrary
  code : Int
  message : String
  deriving DecidableEq

/-- What the macros pass on about the call, src/include/einsums/_GPUUtils.hpp 460–475: the text of
the call, the file, the line (`":" line ":\nIn function: "`) and the function. -/
structure CallSite where
  call : String
  file : String
  location : String
  function : String

/-- A `switch` on the number of a status: the exception of the first case whose label has the
number, else that of `default` (src/_GPUUtils.hip 32–261). -/
def gpuSwitch (code : GpuStatus → Int) (cases : List (GpuStatus × GpuExc)) (other : GpuExc)
    (c : Int) : GpuExc :=
  match cases.find? (fun p => code p.1 == c) with
  | some p => p.2
  | none => other

/-- `__hip_catch__`, src/_GPUUtils.hip 19–262.  `none` is a return.  `text` stands for
`hipGetErrorString`. -/
def hipCatch (code : GpuStatus → Int) (text : Int → String) (c : Int) (at_ : CallSite)
    (throwSuccess : Bool) : Option GpuThrown :=
  let diagnostic := at_.file ++ at_.location ++ at_.function ++ "\nError in line: " ++ at_.call ++
    "\nHIP error code " ++ toString c ++ ": "
  let raise (e : GpuExc) : GpuThrown :=
    { lib := .hip, code := code e.status, message := diagnostic ++ text (code e.status) }
  if c = code .hipSuccess then
    if throwSuccess then some (raise .Success) else none
  else some (raise (gpuSwitch code hipSwitch .ErrorUnknown c))

/-- `__hipblas_catch__`, src/_GPUUtils.hip 272–325.  The function is appended after the number
(line 282), not after the location as in the other two.  `text` stands for
`hipblasStatusToString`. -/
def blasCatch (code : GpuStatus → Int) (text : Int → String) (c : Int) (at_ : CallSite)
    (throwSuccess : Bool) : Option GpuThrown :=
  let diagnostic := at_.file ++ at_.location ++ "\nError in line: " ++ at_.call ++
    "\nhipBLAS error code " ++ toString c ++ ": " ++ at_.function
  let raise (e : GpuExc) : GpuThrown :=
    { lib := .blas, code := code e.status, message := diagnostic ++ text (code e.status) }
  if c = code .HIPBLAS_STATUS_SUCCESS then
    if throwSuccess then some (raise .blasSuccess) else none
  else some (raise (gpuSwitch code blasSwitch .blasUnknown c))

/-- The table of `hipsolverStatusToString`, src/_GPUUtils.hip 408–435. -/
def solverTexts : List (GpuStatus × String) :=
  [(.HIPSOLVER_STATUS_SUCCESS,
     "HIPSOLVER_STATUS_SUCCESS: Success."),
   (.HIPSOLVER_STATUS_NOT_INITIALIZED,
     "HIPSOLVER_STATUS_NOT_INITIALIZED: Handle has not been initialized. Make sure to call hipsolverCreate()."),
   (.HIPSOLVER_STATUS_ALLOC_FAILED,
     "HIPSOLVER_STATUS_ALLOC_FAILED: Could not allocate resources."),
   (.HIPSOLVER_STATUS_INVALID_VALUE,
     "HIPSOLVER_STATUS_INVALID_VALUE: An unsupported numerical value was passed to a function."),
   (.HIPSOLVER_STATUS_MAPPING_ERROR,
     "HIPSOLVER_STATUS_MAPPING_ERROR: Could not access GPU memory space."),
   (.HIPSOLVER_STATUS_EXECUTION_FAILED,
     "HIPSOLVER_STATUS_EXECUTION_FAILED: Failed to execute the program or function."),
   (.HIPSOLVER_STATUS_INTERNAL_ERROR,
     "HIPSOLVER_STATUS_INTERNAL_ERROR: An unspecified internal error has occurred."),
   (.HIPSOLVER_STATUS_NOT_SUPPORTED,
     "HIPSOLVER_STATUS_NOT_SUPPORTED: The function requested is not supported."),
   (.HIPSOLVER_STATUS_ARCH_MISMATCH,
     "HIPSOLVER_STATUS_ARCH_MISMATCH: The code was compiled for a different device than it is being run on."),
   (.HIPSOLVER_STATUS_HANDLE_IS_NULLPTR,
     "HIPSOLVER_STATUS_HANDLE_IS_NULLPTR: The handle that was passed to the function was the null pointer. Make sure it is initialized properly."),
   (.HIPSOLVER_STATUS_INVALID_ENUM,
     "HIPSOLVER_STATUS_INVALID_ENUM: An unsupported enum value was passed to the function."),
   (.HIPSOLVER_STATUS_UNKNOWN,
     "HIPSOLVER_STATUS_UNKNOWN: The backend returned an unsupported status code.")]

/-- `hipsolverStatusToString`, src/_GPUUtils.hip 407–440. -/
def solverText (code : GpuStatus → Int) (c : Int) : String :=
  match solverTexts.find? (fun p => code p.1 == c) with
  | some p => p.2
  | none => "Unrecognized status code from HIPSolver was passed to the stringifier. " ++
      "Assuming HIPSOLVER_STATUS_UNKNOWN."

/-- `__hipsolver_catch__`, src/_GPUUtils.hip 347–405. -/
def solverCatch (code : GpuStatus → Int) (c : Int) (at_ : CallSite) (throwSuccess : Bool) :
    Option GpuThrown :=
  let diagnostic := at_.file ++ at_.location ++ at_.function ++ "\nError in line: " ++ at_.call ++
    "\nhipSolver error code " ++ toString c ++ ": "
  let raise (e : GpuExc) : GpuThrown :=
    { lib := .solver, code := code e.status,
      message := diagnostic ++ solverText code (code e.status) }
  if c = code .HIPSOLVER_STATUS_SUCCESS then
    if throwSuccess then some (raise .solverSuccess) else none
  else some (raise (gpuSwitch code solverSwitch .solverUnknown c))

/-- The calls of `register_exception`, src/python/PyGpuExceptions.hip 15–116: the exception type
and the name of the Python class, here written as the exception name with the same spelling.  The
calls of `register_local_exception` (118–219) repeat them. -/
def pyRegistered : List (GpuExc × GpuExc) :=
  [(.Success, .Success), (.ErrorInvalidValue, .ErrorInvalidValue),
   (.ErrorOutOfMemory, .ErrorOutOfMemory), (.ErrorMemoryAllocation, .ErrorMemoryAllocation),
   (.ErrorNotInitialized, .ErrorNotInitialized),
   (.ErrorInitializationError, .ErrorInitializationError),
   (.ErrorDeinitialized, .ErrorDeinitialized),
   (.ErrorProfilerDisabled, .ErrorProfilerDisabled),
   (.ErrorProfilerNotInitialized, .ErrorProfilerNotInitialized),
   (.ErrorProfilerAlreadyStarted, .ErrorProfilerAlreadyStarted),
   (.ErrorProfilerAlreadyStopped, .ErrorProfilerAlreadyStopped),
   (.ErrorInvalidConfiguration, .ErrorInvalidConfiguration),
   (.ErrorInvalidPitchValue, .ErrorInvalidPitchValue),
   (.ErrorInvalidSymbol, .ErrorInvalidSymbol),
   (.ErrorInvalidDevicePointer, .ErrorInvalidDevicePointer),
   (.ErrorInvalidMemcpyDirection, .ErrorInvalidMemcpyDirection),
   (.ErrorInsufficientDriver, .ErrorInsufficientDriver),
   (.ErrorMissingConfiguration, .ErrorMissingConfiguration),
   (.ErrorPriorLaunchFailure, .ErrorPriorLaunchFailure),
   (.ErrorInvalidDeviceFunction, .ErrorInvalidDeviceFunction),
   (.ErrorNoDevice, .ErrorNoDevice), (.ErrorInvalidDevice, .ErrorInvalidDevice),
   (.ErrorInvalidImage, .ErrorInvalidImage), (.ErrorInvalidContext, .ErrorInvalidContext),
   (.ErrorContextAlreadyCurrent, .ErrorContextAlreadyCurrent),
   (.ErrorMapFailed, .ErrorMapFailed),
   (.ErrorMapBufferObjectFailed, .ErrorMapBufferObjectFailed),
   (.ErrorUnmapFailed, .ErrorUnmapFailed), (.ErrorArrayIsMapped, .ErrorArrayIsMapped),
   (.ErrorAlreadyMapped, .ErrorAlreadyMapped), (.ErrorNoBinaryForGpu, .ErrorNoBinaryForGpu),
   (.ErrorAlreadyAcquired, .ErrorAlreadyAcquired), (.ErrorNotMapped, .ErrorNotMapped),
   (.ErrorNotMappedAsArray, .ErrorNotMappedAsArray),
   (.ErrorNotMappedAsPointer, .ErrorNotMappedAsPointer),
   (.ErrorECCNotCorrectable, .ErrorECCNotCorrectable),
   (.ErrorUnsupportedLimit, .ErrorUnsupportedLimit),
   (.ErrorContextAlreadyInUse, .ErrorContextAlreadyInUse),
   (.ErrorPeerAccessUnsupported, .ErrorPeerAccessUnsupported),
   (.ErrorInvalidKernelFile, .ErrorInvalidKernelFile),
   (.ErrorInvalidGraphicsContext, .ErrorInvalidGraphicsContext),
   (.ErrorInvalidSource, .ErrorInvalidSource), (.ErrorFileNotFound, .ErrorFileNotFound),
   (.ErrorSharedObjectSymbolNotFound, .ErrorSharedObjectSymbolNotFound),
   (.ErrorSharedObjectInitFailed, .ErrorSharedObjectInitFailed),
   (.ErrorOperatingSystem, .ErrorOperatingSystem), (.ErrorInvalidHandle, .ErrorInvalidHandle),
   (.ErrorInvalidResourceHandle, .ErrorInvalidResourceHandle),
   (.ErrorIllegalState, .ErrorIllegalState), (.ErrorNotFound, .ErrorNotFound),
   (.ErrorNotReady, .ErrorNotReady), (.ErrorIllegalAddress, .ErrorIllegalAddress),
   (.ErrorLaunchOutOfResources, .ErrorLaunchOutOfResources),
   (.ErrorLaunchTimeOut, .ErrorLaunchTimeOut),
   (.ErrorPeerAccessAlreadyEnabled, .ErrorPeerAccessAlreadyEnabled),
   (.ErrorPeerAccessNotEnabled, .ErrorPeerAccessNotEnabled),
   (.ErrorSetOnActiveProcess, .ErrorSetOnActiveProcess),
   (.ErrorContextIsDestroyed, .ErrorContextIsDestroyed), (.ErrorAssert, .ErrorAssert),
   (.ErrorHostMemoryAlreadyRegistered, .ErrorHostMemoryAlreadyRegistered),
   (.ErrorHostMemoryNotRegistered, .ErrorHostMemoryNotRegistered),
   (.ErrorLaunchFailure, .ErrorLaunchFailure),
   (.ErrorCooperativeLaunchTooLarge, .ErrorCooperativeLaunchTooLarge),
   (.ErrorNotSupported, .ErrorNotSupported),
   (.ErrorStreamCaptureUnsupported, .ErrorStreamCaptureUnsupported),
   (.ErrorStreamCaptureInvalidated, .ErrorStreamCaptureInvalidated),
   (.ErrorStreamCaptureMerge, .ErrorStreamCaptureMerge),
   (.ErrorStreamCaptureUnmatched, .ErrorStreamCaptureUnmatched),
   (.ErrorStreamCaptureUnjoined, .ErrorStreamCaptureUnjoined),
   (.ErrorStreamCaptureIsolation, .ErrorStreamCaptureIsolation),
   (.ErrorStreamCaptureImplicit, .ErrorStreamCaptureImplicit),
   (.ErrorCapturedEvent, .ErrorCapturedEvent),
   (.ErrorStreamCaptureWrongThread, .ErrorStreamCaptureWrongThread),
   (.ErrorGraphExecUpdateFailure, .ErrorGraphExecUpdateFailure),
   (.ErrorUnknown, .ErrorUnknown), (.ErrorRuntimeMemory, .ErrorRuntimeMemory),
   (.ErrorRuntimeOther, .ErrorRuntimeOther), (.ErrorTbd, .ErrorTbd),
   (.blasSuccess, .blasSuccess), (.blasNotInitialized, .blasNotInitialized),
   (.blasAllocFailed, .blasAllocFailed), (.blasInvalidValue, .blasInvalidValue),
   (.blasMappingError, .blasMappingError), (.blasExecutionFailed, .blasExecutionFailed),
   (.blasInternalError, .blasInternalError), (.blasNotSupported, .blasNotSupported),
   (.blasArchMismatch, .blasArchMismatch), (.blasHandleIsNullptr, .blasHandleIsNullptr),
   (.blasInvalidEnum, .blasInvalidEnum), (.blasUnknown, .blasUnknown),
   (.solverSuccess, .solverSuccess), (.solverNotInitialized, .solverNotInitialized),
   (.solverAllocFailed, .solverAllocFailed), (.solverInvalidValue, .solverInvalidValue),
   (.solverMappingError, .solverMappingError),
   (.solverExecutionFailed, .solverExecutionFailed),
   (.solverInternalError, .solverInternalError),
   (.solverFuncNotSupported, .solverFuncNotSupported),
   (.solverArchMismatch, .solverArchMismatch),
   (.solverHandleIsNullptr, .solverHandleIsNullptr), (.solverInvalidEnum, .solverInvalidEnum),
   (.solverUnknown, .solverUnknown)]

/-- The library whose template an exception name instantiates,
src/include/einsums/_GPUUtils.hpp 116–193, 276–287 and 380–391. -/
def GpuExc.lib (e : GpuExc) : GpuLibrary :=
  match e with
  | .blasSuccess | .blasNotInitialized | .blasAllocFailed | .blasInvalidValue | .blasMappingError
  | .blasExecutionFailed | .blasInternalError | .blasNotSupported | .blasArchMismatch
  | .blasHandleIsNullptr | .blasInvalidEnum | .blasUnknown => .blas
  | .solverSuccess | .solverNotInitialized | .solverAllocFailed | .solverInvalidValue
  | .solverMappingError | .solverExecutionFailed | .solverInternalError | .solverFuncNotSupported
  | .solverArchMismatch | .solverHandleIsNullptr | .solverInvalidEnum | .solverUnknown => .solver
  | _ => .hip

/-- The C++ type behind an exception name: the template and the number. -/
def GpuExc.type (code : GpuStatus → Int) (e : GpuExc) : GpuLibrary × Int := (e.lib, code e.status)

/-- `export_gpu_except`, src/python/PyGpuExceptions.hip 14–220, with `register_exception` of
pybind11: the class is made, and put into the module under its name, when the C++ type is met for
the first time; a later registration of the same type changes nothing.  The result is the table
from C++ types to Python classes. -/
def exportGpuExcept (code : GpuStatus → Int) : List ((GpuLibrary × Int) × GpuExc) :=
  pyRegistered.foldl (init := []) fun table p =>
    if table.any (fun q => q.1 == p.1.type code) then table else table ++ [(p.1.type code, p.2)]

/-- The Python class raised for a C++ exception: the one its type is registered with; `none`: pybind11
falls back on `RuntimeError` (the types derive from `std::exception`). -/
def pyClassOf (code : GpuStatus → Int) (e : GpuThrown) : Option GpuExc :=
  ((exportGpuExcept code).find? (fun q => q.1 == (e.lib, e.code))).map (·.2)

end Einsums.Model
