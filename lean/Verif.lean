import Verif.Basic
import Verif.Examples.Deploy
import Verif.Examples.Program
import Verif.Examples.Shop
import Verif.Lemmas.Assemble
import Verif.Lemmas.Capacity
import Verif.Lemmas.Cat
import Verif.Lemmas.CatExact
import Verif.Lemmas.CatMutate
import Verif.Lemmas.CatSort
import Verif.Lemmas.CatStable
import Verif.Lemmas.Check
import Verif.Lemmas.ColumnRun
import Verif.Lemmas.CondNames
import Verif.Lemmas.Convert
import Verif.Lemmas.Data
import Verif.Lemmas.DataLookup
import Verif.Lemmas.Db
import Verif.Lemmas.Deploy
import Verif.Lemmas.DeployOrder
import Verif.Lemmas.DeployValid
import Verif.Lemmas.DeployWF
import Verif.Lemmas.Dml
import Verif.Lemmas.Exec
import Verif.Lemmas.Explore
import Verif.Lemmas.Fields
import Verif.Lemmas.Flat
import Verif.Lemmas.Frame
import Verif.Lemmas.Json
import Verif.Lemmas.Lex
import Verif.Lemmas.Mem
import Verif.Lemmas.MemberType
import Verif.Lemmas.Members
import Verif.Lemmas.Needs
import Verif.Lemmas.Ns
import Verif.Lemmas.NsAlter
import Verif.Lemmas.NsDrop
import Verif.Lemmas.NsExact
import Verif.Lemmas.NsMutate
import Verif.Lemmas.NsObj
import Verif.Lemmas.ObjectDict
import Verif.Lemmas.PyCode
import Verif.Lemmas.PyRun
import Verif.Lemmas.Qualified
import Verif.Lemmas.Remarks
import Verif.Lemmas.RemarksCat
import Verif.Lemmas.RemarksType
import Verif.Lemmas.Rows
import Verif.Lemmas.Settled
import Verif.Lemmas.Table
import Verif.Lemmas.TableAlter
import Verif.Lemmas.TableMutate
import Verif.Lemmas.TableRun
import Verif.Lemmas.Token
import Verif.Lemmas.TokenReader
import Verif.Lemmas.TokenRun
import Verif.Lemmas.TokenScript
import Verif.Lemmas.TokenStmt
import Verif.Lemmas.TokenType
import Verif.Lemmas.Topo
import Verif.Lemmas.TypeDiscovery
import Verif.Lemmas.TypeMutate
import Verif.Lemmas.Url
import Verif.Model.AutoDefault
import Verif.Model.Bind
import Verif.Model.Clients
import Verif.Model.Compatible
import Verif.Model.Connect
import Verif.Model.Converter
import Verif.Model.Copy
import Verif.Model.Discovery
import Verif.Model.Dispatch
import Verif.Model.Dml
import Verif.Model.DmlText
import Verif.Model.DropSchema
import Verif.Model.Engines
import Verif.Model.Exchange
import Verif.Model.Explorers
import Verif.Model.Factories
import Verif.Model.Fields
import Verif.Model.Ident
import Verif.Model.Literal
import Verif.Model.Lookup
import Verif.Model.Merge
import Verif.Model.Mutation
import Verif.Model.ObjectDict
import Verif.Model.Objects
import Verif.Model.Odbc
import Verif.Model.Params
import Verif.Model.PyCode
import Verif.Model.PyTypes
import Verif.Model.Random
import Verif.Model.Records
import Verif.Model.Registry
import Verif.Model.Render
import Verif.Model.ResultSet
import Verif.Model.Reverse
import Verif.Model.Session
import Verif.Model.Split
import Verif.Model.SqlType
import Verif.Model.Topo
import Verif.Model.Transact
import Verif.Model.TsvTypes
import Verif.Model.TypeDiscovery
import Verif.Props.C01
import Verif.Props.C01Exact
import Verif.Props.C01Fails
import Verif.Props.C02
import Verif.Props.C03
import Verif.Props.C04
import Verif.Props.C05
import Verif.Props.C05Exact
import Verif.Props.C06
import Verif.Props.C06Exact
import Verif.Props.C07
import Verif.Props.C08
import Verif.Props.C09
import Verif.Props.C10
import Verif.Props.C10Catalog
import Verif.Props.C10Exact
import Verif.Props.C11
import Verif.Props.C12
import Verif.Props.C13
import Verif.Props.C14
import Verif.Props.C15
import Verif.Props.C16
import Verif.Props.C16Servers
import Verif.Props.C17
import Verif.Props.C18
import Verif.Props.C19
import Verif.Props.C20
import Verif.Props.C21
import Verif.Props.C22
import Verif.Props.C23
import Verif.Props.C24
import Verif.Props.C25
import Verif.Props.C26
import Verif.Props.C27
import Verif.Props.C28
import Verif.Props.C29
import Verif.Props.C29Exact
import Verif.Props.C30
import Verif.Props.C31
import Verif.Props.C32
import Verif.Props.C33
import Verif.Props.C34
import Verif.Props.C34Exact
import Verif.Props.C35
import Verif.Props.C36
import Verif.Props.C37
import Verif.Props.C38
import Verif.Props.C39
import Verif.Props.C40
import Verif.Props.C41
import Verif.Props.C42
import Verif.Props.C43
import Verif.Props.C44
import Verif.Props.C45
import Verif.Props.C46
import Verif.Props.C46Exact
import Verif.Props.C47
import Verif.Props.C47Fails
import Verif.Props.C48
import Verif.Props.C49
import Verif.Props.C50
import Verif.Props.C51
import Verif.Props.C52
import Verif.Props.C53
import Verif.Props.C54
import Verif.Props.C55
import Verif.Props.C56
import Verif.Props.C57
import Verif.Props.C59
import Verif.Props.C60
import Verif.Props.C61
import Verif.Props.C62
import Verif.Props.C63
import Verif.Props.C64
import Verif.Props.C65
import Verif.Props.C66
import Verif.Props.C67
import Verif.Props.C68
import Verif.Spec.Agree
import Verif.Spec.AutoDefault
import Verif.Spec.Bind
import Verif.Spec.Capacity
import Verif.Spec.Convert
import Verif.Spec.Copy
import Verif.Spec.Ddl
import Verif.Spec.Denote
import Verif.Spec.Deploy
import Verif.Spec.Dispatch
import Verif.Spec.Dml
import Verif.Spec.DmlText
import Verif.Spec.DropSchema
import Verif.Spec.Explore
import Verif.Spec.Explorers
import Verif.Spec.Fields
import Verif.Spec.Foot
import Verif.Spec.Given
import Verif.Spec.Integers
import Verif.Spec.Joins
import Verif.Spec.Keep
import Verif.Spec.Lex
import Verif.Spec.Members
import Verif.Spec.Merge
import Verif.Spec.Odbc
import Verif.Spec.Order
import Verif.Spec.Params
import Verif.Spec.PyCode
import Verif.Spec.Random
import Verif.Spec.Remarks
import Verif.Spec.Reverse
import Verif.Spec.Rows
import Verif.Spec.Safe
import Verif.Spec.Same
import Verif.Spec.ServerTypes
import Verif.Spec.Stable
import Verif.Spec.Stmt
import Verif.Spec.Token
import Verif.Spec.Transact
import Verif.Spec.TsvTypes
import Verif.Spec.UserTypes
import Verif.Spec.Values
