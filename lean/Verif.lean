import Verif.Base
import Verif.Props.Erc20
import Verif.Props.Erc20History
import Verif.Props.Utils
import Verif.Props.Access
import Verif.Props.Erc20Example
import Verif.Props.Math
import Verif.Props.Checkpoints
import Verif.Props.Vesting
import Verif.Props.SafeErc20
import Verif.Props.Erc4626
import Verif.Props.Crypto
import Verif.Props.Erc20Permit
import Verif.Props.Erc20Wrapper
import Verif.Props.FlashMint
import Verif.Props.Erc721
import Verif.Props.Erc721Enumerable
import Verif.Props.Erc721Consecutive
import Verif.Props.Erc721Wrapper
import Verif.Props.Erc1155
import Verif.Props.Erc2981
import Verif.Props.Limb
import Verif.Props.Uint
import Verif.Props.Fp
import Verif.Props.FpInstances
import Verif.Props.Curve
import Verif.Props.FpField
import Verif.Props.Merkle
import Verif.Props.Poseidon
import Verif.Props.PoseidonInstances
import Verif.Props.Metadata
import Verif.Props.Compositions
import Verif.Props.InterfaceIds
import Verif.Props.Interfaces
import Verif.Props.Reentrant
import Verif.Props.VestingReentrant
import Verif.Props.Erc4626Reentrant
import Verif.Props.Erc20WrapperReentrant
import Verif.Props.Erc721WrapperReentrant
import Verif.Proofs.KeccakFast
import Verif.Model.GenericHash
import Verif.Props.GenericHash
import Verif.Proofs.PoseidonMap
import Verif.Model.PoseidonExample
import Verif.Props.PoseidonExample
import Verif.Model.Revert
import Verif.Spec.Revert
import Verif.Props.RevertValues
import Verif.Props.Revert
import Verif.Model.Logs
import Verif.Spec.Logs
import Verif.Props.LogValues
import Verif.Props.Logs
import Verif.Props.LogReaders
import Verif.Model.Router
import Verif.Spec.Router
import Verif.Props.RouterValues
import Verif.Props.Router
import Verif.Props.Storage
import Verif.Props.Constructors
import Verif.Props.ConsecutiveConstructor
import Verif.Props.StoragePrograms
import Verif.Model.Abi
import Verif.Model.Calls
import Verif.Model.Entry
import Verif.Spec.Calls
import Verif.Props.Calls
import Verif.Props.Entry
import Verif.Props.ContractsErc20
import Verif.Props.ContractsErc721
import Verif.Props.ContractsErc1155
import Verif.Model.Deployed
import Verif.Spec.Deployed
import Verif.Proofs.Deployed
import Verif.Props.Deployed
import Verif.Model.Outside
import Verif.Spec.Outside
import Verif.Proofs.Outside
import Verif.Props.Vault
import Verif.Props.VaultSystem
import Verif.Props.WrapperBytes
import Verif.Spec.Inflation
import Verif.Props.Inflation
import Verif.Model.Pure
import Verif.Props.Pure
import Verif.Model.SafeBytes
import Verif.Spec.SafeBytes
import Verif.Props.SafeBytes
import Verif.Model.VestingBytes
import Verif.Spec.VestingBytes
import Verif.Props.VestingBytes
import Verif.Spec.VestingSystem
import Verif.Props.VestingSystem
import Verif.Model.FlashBytes
import Verif.Spec.FlashBytes
import Verif.Props.FlashBytes
import Verif.Model.NftBytes
import Verif.Spec.NftBytes
import Verif.Props.NftBytes
import Verif.Props.NftSystem
import Verif.Model.CurveScalar
import Verif.Props.CurveScalar
import Verif.Props.Secp256k1
import Verif.Props.KnownAnswers
import Verif.Model.Erc721Words
import Verif.Props.Erc721Words
import Verif.Model.NftDeployed
import Verif.Spec.NftDeployed
import Verif.Proofs.NftDeployed
import Verif.Proofs.NftDeployedRun
import Verif.Props.NftDeployed
import Verif.Model.GatesDeployed
import Verif.Spec.GatesDeployed
import Verif.Proofs.OnWords
import Verif.Proofs.GatesDeployed
import Verif.Props.GatesDeployed
import Verif.Model.MultiDeployed
import Verif.Spec.MultiDeployed
import Verif.Proofs.MultiWords
import Verif.Proofs.MultiDeployed
import Verif.Props.OnWords
import Verif.Props.MultiDeployed
import Verif.Model.PermitDeployed
import Verif.Spec.PermitDeployed
import Verif.Proofs.PermitDeployed
import Verif.Props.PermitDeployed
import Verif.Model.UriDeployed
import Verif.Spec.UriDeployed
import Verif.Proofs.Texts
import Verif.Proofs.UriDeployed
import Verif.Props.UriDeployed
import Verif.Model.VestingDeployed
import Verif.Spec.VestingDeployed
import Verif.Proofs.Chained
import Verif.Proofs.VestingDeployed
import Verif.Props.VestingDeployed
import Verif.Model.WrapperDeployed
import Verif.Spec.WrapperDeployed
import Verif.Proofs.Backed
import Verif.Proofs.WrapperDeployed
import Verif.Props.WrapperDeployed
import Verif.Model.VaultDeployed
import Verif.Spec.VaultDeployed
import Verif.Proofs.VaultDeployed
import Verif.Props.VaultDeployed
import Verif.Model.FlashDeployed
import Verif.Spec.FlashDeployed
import Verif.Proofs.FlashDeployed
import Verif.Props.FlashDeployed
import Verif.Model.NftWrapperDeployed
import Verif.Spec.NftWrapperDeployed
import Verif.Proofs.NftWrapperDeployed
import Verif.Props.NftWrapperDeployed
import Verif.Model.ConsecutiveDeployed
import Verif.Spec.ConsecutiveDeployed
import Verif.Proofs.ConsecutiveDeployed
import Verif.Proofs.ConsecutiveDeployedRun
import Verif.Props.ConsecutiveDeployed
import Verif.Model.BasicDeployed
import Verif.Spec.BasicDeployed
import Verif.Proofs.BasicDeployed
import Verif.Props.BasicDeployed
import Verif.Spec.TwoDeployed
import Verif.Proofs.TwoDeployed
import Verif.Props.TwoDeployed
import Verif.Props.Refusals
import Verif.Spec.WalletTokenDeployed
import Verif.Proofs.WalletTokenDeployed
import Verif.Props.WalletTokenDeployed
import Verif.Spec.NftTwoDeployed
import Verif.Proofs.NftTwoDeployed
import Verif.Props.NftTwoDeployed
