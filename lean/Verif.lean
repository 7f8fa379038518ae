import Verif.Model.Adjust
import Verif.Model.Arith
import Verif.Model.AstcPool
import Verif.Model.CommandLine
import Verif.Model.Converter
import Verif.Model.Dbl
import Verif.Model.Directory
import Verif.Model.Encode
import Verif.Model.EncoderOptions
import Verif.Model.FloatImage
import Verif.Model.Geometry
import Verif.Model.HalfFloat
import Verif.Model.Image
import Verif.Model.ImageObjects
import Verif.Model.ImageStreams
import Verif.Model.Load
import Verif.Model.Mips3d
import Verif.Model.Num
import Verif.Model.Objects
import Verif.Model.Process
import Verif.Model.Save
import Verif.Model.SaveTables
import Verif.Model.Tables
import Verif.Model.Texture
import Verif.Model.TextureConvert
import Verif.Model.TextureImages
import Verif.Model.Threads
import Verif.Model.Tool
import Verif.Model.ToolMain
import Verif.Proofs.AdjustOk
import Verif.Proofs.ArithLaws
import Verif.Proofs.Basic
import Verif.Proofs.Bin
import Verif.Proofs.BlockJobs
import Verif.Proofs.Blocks
import Verif.Proofs.BoxIeee
import Verif.Proofs.Bytes
import Verif.Proofs.ChainRange
import Verif.Proofs.Codes
import Verif.Proofs.CommandInts
import Verif.Proofs.CommandKeep
import Verif.Proofs.CommandLine
import Verif.Proofs.CommandSafe
import Verif.Proofs.CommandSteps
import Verif.Proofs.Convert
import Verif.Proofs.Converted
import Verif.Proofs.Dbl
import Verif.Proofs.DepthIeee
import Verif.Proofs.Encode
import Verif.Proofs.EncodeSafe
import Verif.Proofs.EncoderOptions
import Verif.Proofs.Exact
import Verif.Proofs.Fields
import Verif.Proofs.FieldsPacked
import Verif.Proofs.FileTables
import Verif.Proofs.Filter
import Verif.Proofs.FilterIeee
import Verif.Proofs.Geometry
import Verif.Proofs.HalfFloat
import Verif.Proofs.HalfTexels
import Verif.Proofs.ImageConvert
import Verif.Proofs.ImageGeom
import Verif.Proofs.ImageKeep
import Verif.Proofs.ImageLoop
import Verif.Proofs.ImageMap
import Verif.Proofs.ImageObjects
import Verif.Proofs.ImagePx
import Verif.Proofs.ImageRuns
import Verif.Proofs.Jobs
import Verif.Proofs.LinearIeee
import Verif.Proofs.LoadWithin
import Verif.Proofs.Lossless
import Verif.Proofs.Mips3dSafe
import Verif.Proofs.NormalIeee
import Verif.Proofs.Num
import Verif.Proofs.Objects
import Verif.Proofs.OptionEnd
import Verif.Proofs.OptionLists
import Verif.Proofs.OptionSteps
import Verif.Proofs.OptionWords
import Verif.Proofs.Options
import Verif.Proofs.Pixels
import Verif.Proofs.Process
import Verif.Proofs.ProcessAlive
import Verif.Proofs.ProcessColors
import Verif.Proofs.ProcessJob
import Verif.Proofs.ProcessSafe
import Verif.Proofs.Pvrtc
import Verif.Proofs.Quant
import Verif.Proofs.RangeIeee
import Verif.Proofs.RangeProcess
import Verif.Proofs.Resize
import Verif.Proofs.ResizeSafe
import Verif.Proofs.Sample
import Verif.Proofs.SaveBody
import Verif.Proofs.SaveDds
import Verif.Proofs.SaveKtx
import Verif.Proofs.SavePvr
import Verif.Proofs.SaveRun
import Verif.Proofs.SaveSample
import Verif.Proofs.Shaped
import Verif.Proofs.Srgb
import Verif.Proofs.SrgbIeee
import Verif.Proofs.SrgbResize
import Verif.Proofs.StdJobs
import Verif.Proofs.Store
import Verif.Proofs.Stored
import Verif.Proofs.TexConvert
import Verif.Proofs.TexGen
import Verif.Proofs.TexHist
import Verif.Proofs.TexImages
import Verif.Proofs.TexInv
import Verif.Proofs.TexMips
import Verif.Proofs.TexMips3d
import Verif.Proofs.TexMipsFlat
import Verif.Proofs.TexSafe
import Verif.Proofs.TexWeak
import Verif.Proofs.TextureImages
import Verif.Proofs.ThreadConv
import Verif.Proofs.ThreadJobs
import Verif.Proofs.Threads
import Verif.Proofs.ToBits
import Verif.Proofs.ToneIeee
import Verif.Proofs.ToolDefined
import Verif.Proofs.ToolFile
import Verif.Proofs.ToolImages
import Verif.Proofs.ToolLevels
import Verif.Proofs.ToolRun
import Verif.Proofs.ToolSafe
import Verif.Proofs.ToolTex
import Verif.Proofs.ToolUnit
import Verif.Proofs.UnitFits
import Verif.Proofs.UnitIeee
import Verif.Proofs.UnitMips3d
import Verif.Proofs.UnitProcess
import Verif.Proofs.UnitRuns
import Verif.Proofs.WindowIeee
import Verif.Proofs.WindowSize
import Verif.Props.C01
import Verif.Props.C02
import Verif.Props.C03
import Verif.Props.C04
import Verif.Props.C05
import Verif.Props.C06
import Verif.Props.C07
import Verif.Props.C08
import Verif.Props.C09
import Verif.Props.C10
import Verif.Props.C11
import Verif.Props.C12
import Verif.Props.C13
import Verif.Props.C14
import Verif.Props.C15
import Verif.Props.C16
import Verif.Props.C17
import Verif.Props.C18
import Verif.Props.C19
import Verif.Props.C20
import Verif.Props.C21
import Verif.Props.C22
import Verif.Props.C23
import Verif.Props.C24
import Verif.Props.C25
import Verif.Props.C26
import Verif.Props.C27
import Verif.Props.C28
import Verif.Props.C29
import Verif.Props.C29Rounded
import Verif.Props.C30
import Verif.Props.C31
import Verif.Props.C31Rounded
import Verif.Props.C32
import Verif.Props.C32Rounded
import Verif.Props.C33
import Verif.Props.C34
import Verif.Props.C35
import Verif.Props.C36
import Verif.Props.C37
import Verif.Props.C38
import Verif.Props.C39
import Verif.Props.C40
import Verif.Props.C41
import Verif.Props.C42
import Verif.Props.C43
import Verif.Props.C44
import Verif.Props.C45
import Verif.Props.C46
import Verif.Props.C47
import Verif.Props.C47Rounded
import Verif.Props.C48
import Verif.Props.C48Rounded
import Verif.Props.C49
import Verif.Props.C50
import Verif.Props.C51
import Verif.Props.C52
import Verif.Props.C53
import Verif.Props.C54
import Verif.Props.C55
import Verif.Props.C56
import Verif.Props.C57
import Verif.Props.C58
import Verif.Props.C59
import Verif.Props.C60
import Verif.Props.C60Images
import Verif.Props.C61
import Verif.Props.C62
import Verif.Props.C63
import Verif.Props.C64
import Verif.Props.C65
import Verif.Spec.Adjust
import Verif.Spec.Bin
import Verif.Spec.Blocks
import Verif.Spec.Codes
import Verif.Spec.Convert
import Verif.Spec.Converted
import Verif.Spec.Dds
import Verif.Spec.Defined
import Verif.Spec.Directory
import Verif.Spec.EncoderOptions
import Verif.Spec.Exact
import Verif.Spec.File
import Verif.Spec.Formats
import Verif.Spec.HalfFloat
import Verif.Spec.Image
import Verif.Spec.ImageCalls
import Verif.Spec.ImageValues
import Verif.Spec.Job
import Verif.Spec.Ktx
import Verif.Spec.Lossless
import Verif.Spec.Mip
import Verif.Spec.MipChain
import Verif.Spec.MipColors
import Verif.Spec.Near
import Verif.Spec.Normal
import Verif.Spec.Options
import Verif.Spec.Picture
import Verif.Spec.Pixels
import Verif.Spec.Process
import Verif.Spec.Pvr
import Verif.Spec.Quant
import Verif.Spec.Range
import Verif.Spec.Resize
import Verif.Spec.Safe
import Verif.Spec.Sqrt
import Verif.Spec.Streams
import Verif.Spec.Surface
import Verif.Spec.Swizzle
import Verif.Spec.Texture
import Verif.Spec.Threads
import Verif.Spec.Tone
import Verif.Spec.Tool
import Verif.Spec.Toy
import Verif.Spec.ToyImage
import Verif.Spec.ToyPow
import Verif.Spec.Unit
import Verif.Spec.Values
import Verif.Spec.Written
